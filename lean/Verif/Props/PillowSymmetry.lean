import Verif.Proofs.PillowSums
import Verif.Props.Pillow
/-!
# C197: what resizing does to a flow field

The resampling is Pillow's (`Model/Pillow.lean`, exact arithmetic).
-/

namespace Verif.Pillow
open Verif

/-! ## Specification -/

/-- The array `V` stores the flow field with component `k` (0 for `u`, 1 for `v`) equal to `g k y x` at row `y` of `h` and column `x` of `w`, in the layout `(h, w, 2)` or `(2, h, w)`. -/
def Stores (V : Arr ℚ) (h w : Nat) (g : Nat → Nat → Nat → ℚ) : Prop :=
  V.WF ∧ ((V.shape = [h, w, 2] ∧ ∀ k y x, k < 2 → y < h → x < w → V.at? [y, x, k] = some (g k y x)) ∨
    (V.shape = [2, h, w] ∧ w ≠ 2 ∧ ∀ k y x, k < 2 → y < h → x < w → V.at? [k, y, x] = some (g k y x)))

/-- The file `p` can be read, and its `V` stores this flow field. -/
def FileHas (io : Formats.MatIO) (p : String) (h w : Nat) (g : Nat → Nat → Nat → ℚ) : Prop :=
  ∃ data V, Formats.matRead io p = .ok data ∧ data.lookup "V" = some V ∧ Stores V h w g

/-- Loading `p` gives a sample whose flow field has component `k` equal to `q k y x` at row `y` and column `x`. -/
def LoadsAs (io : Formats.MatIO) (c : Formats.MatCfg) (p : String) (q : Nat → Nat → Nat → ℚ) : Prop :=
  ∃ s, Formats.matLoad io c p = .ok s ∧ s.flow.shape = [c.height, c.width, 2] ∧
    ∀ k y x, k < 2 → y < c.height → x < c.width → s.flow.at? [y, x, k] = some (q k y x)

/-! ## The loaded flow -/

/-- Resampled in both directions and multiplied with the ratio of the sizes. -/
def loaded (h w H W : Nat) (g : Nat → Nat → Nat → ℚ) (k y x : Nat) : ℚ :=
  pass h H (fun j => pass w W (fun i => g k j i) x) y * (if k = 0 then (W : ℚ) / w else (H : ℚ) / h)

private theorem stored_within {V : Arr ℚ} {h w : Nat} {g : Nat → Nat → Nat → ℚ} (hV : Stores V h w g) {k : Nat} (hk : k < 2) {a : Arr ℚ} {h' w' : Nat}
    (hc : Whole.Component V h' w' k a) : h' = h ∧ w' = w ∧ ∀ y x, y < h → x < w → a.at? [y, x] = some (g k y x) := by
  obtain ⟨_, hV⟩ := hV
  obtain ⟨_, hc⟩ := hc
  rcases hV with ⟨e, hr⟩ | ⟨e, hne, hr⟩ <;> rcases hc with ⟨e', hat⟩ | ⟨e', hne', hat⟩ <;> rw [e] at e' <;> simp only [List.cons.injEq, and_true] at e'
  · obtain ⟨rfl, rfl⟩ := e'
    exact ⟨rfl, rfl, fun y x hy hx => by rw [hat y x hy hx]; exact hr k y x hk hy hx⟩
  · omega
  · omega
  · obtain ⟨-, rfl, rfl⟩ := e'
    exact ⟨rfl, rfl, fun y x hy hx => by rw [hat y x hy hx]; exact hr k y x hk hy hx⟩

private theorem resampled_at {a r : Arr ℚ} {h w H W : Nat} {g : Nat → Nat → ℚ} (hh : 0 < h) (hw : 0 < w) (hH : 0 < H) (hW : 0 < W) (hs : a.shape = [h, w])
    (ha : ∀ y x, y < h → x < w → a.at? [y, x] = some (g y x)) (hr : (h = H ∧ w = W ∧ r = a) ∨ resize a W H = .ok r) {y x : Nat} (hy : y < H) (hx : x < W) :
    r.at? [y, x] = some (pass h H (fun j => pass w W (fun i => g j i) x) y) := by
  rcases hr with ⟨rfl, rfl, rfl⟩ | hr
  · rw [pass_same hy, pass_same hx]
    exact ha y x hy hx
  · obtain ⟨r', e1, _, _, e2⟩ := resize_ok hs hW hH
    rw [hr] at e1
    cases e1
    rw [e2 y x hy hx]
    congr 1
    exact pass_congr hy hh (fun j hj => pass_congr hx hw (fun i hi => at_data hs hj hi (ha j i hj hi)))

private theorem flow_loaded {io : Formats.MatIO} (hio : io.resizeFlow = resize) (c : Formats.MatCfg) (hH : 0 < c.height) (hW : 0 < c.width)
    {V f : Arr ℚ} {h w : Nat} {g : Nat → Nat → Nat → ℚ} (hV : Stores V h w g) (hf : Formats.matFlow io c V = .ok f) :
    0 < h ∧ 0 < w ∧ f.shape = [c.height, c.width, 2] ∧
      ∀ k y x, k < 2 → y < c.height → x < c.width → f.at? [y, x, k] = some (loaded h w c.height c.width g k y x) := by
  have hpil : Formats.PilOK { io with resizeImage := fun _ w h => .ok (Arr.zeros 0 [h, w]) } :=
    filter_pilOK hio (fun a r w h hr => by simp only [Except.ok.injEq] at hr; rw [← hr]; rfl)
  have hax : V.shape.length ≤ 3 := by
    rcases hV.2 with ⟨e, _⟩ | ⟨e, _⟩ <;> rw [e] <;> simp
  have hf' : Formats.matFlow { io with resizeImage := fun _ w h => .ok (Arr.zeros 0 [h, w]) } c V = .ok f := hf
  obtain ⟨hs, -, h', w', us, vs, ru, rv, hh, hw, cu, cv, hres, hat⟩ := Whole.matFlow_resized' hpil hH hW hV.1 hax hf'
  obtain ⟨rfl, rfl, au⟩ := stored_within hV (by omega) cu
  obtain ⟨-, -, av⟩ := stored_within hV (by omega) cv
  refine ⟨hh, hw, hs, ?_⟩
  intro k y x hk hy hx
  obtain ⟨a0, a1⟩ := hat y x hy hx
  have hdis : ((h' = c.height ∧ w' = c.width ∧ ru = us) ∨ resize us c.width c.height = .ok ru) ∧
      ((h' = c.height ∧ w' = c.width ∧ rv = vs) ∨ resize vs c.width c.height = .ok rv) := by
    split at hres
    · rename_i he
      simp only [Prod.mk.injEq] at he
      exact ⟨.inl ⟨he.1, he.2, hres.1⟩, .inl ⟨he.1, he.2, hres.2⟩⟩
    · dsimp only at hres
      rw [hio] at hres
      exact ⟨.inr hres.1, .inr hres.2⟩
  have hk' : k = 0 ∨ k = 1 := by omega
  unfold loaded
  rcases hk' with rfl | rfl
  · rw [if_pos rfl, a0, resampled_at hh hw hH hW cu.1 au hdis.1 hy hx]
    rfl
  · rw [if_neg (by omega), a1, resampled_at hh hw hH hW cv.1 av hdis.2 hy hx]
    rfl

/-- What a file that can be loaded is loaded as. -/
theorem loads_as {io : Formats.MatIO} (hio : io.resizeFlow = resize) {c : Formats.MatCfg} (hH : 0 < c.height) (hW : 0 < c.width) {p : String} {h w : Nat}
    {g : Nat → Nat → Nat → ℚ} (hp : FileHas io p h w g) {q : Nat → Nat → Nat → ℚ} (hq : LoadsAs io c p q) :
    0 < h ∧ 0 < w ∧ ∀ k y x, k < 2 → y < c.height → x < c.width → q k y x = loaded h w c.height c.width g k y x := by
  obtain ⟨data, V, h1, h2, h3⟩ := hp
  obtain ⟨s, s1, s2, s3⟩ := hq
  obtain ⟨hh, hw, _, e⟩ := flow_loaded hio c hH hW h3 (Formats.matLoad_flow h1 h2 s1)
  refine ⟨hh, hw, fun k y x hk hy hx => ?_⟩
  have := s3 k y x hk hy hx
  rw [e k y x hk hy hx] at this
  exact (Option.some.inj this).symm

/-! ## C197 -/

/-- **C197**, superposition: a file with the sum of multiples of two flow fields of the same size is loaded as the sum of the multiples of what these are loaded as. -/
theorem C197_linear (io : Formats.MatIO) (hio : io.resizeFlow = resize) (c : Formats.MatCfg) (hH : 0 < c.height) (hW : 0 < c.width) (h w : Nat) (a b : ℚ)
    (g₁ g₂ : Nat → Nat → Nat → ℚ) (p₁ p₂ p₃ : String) (f₁ : FileHas io p₁ h w g₁) (f₂ : FileHas io p₂ h w g₂)
    (f₃ : FileHas io p₃ h w (fun k y x => a * g₁ k y x + b * g₂ k y x)) (q₁ q₂ q₃ : Nat → Nat → Nat → ℚ) (l₁ : LoadsAs io c p₁ q₁) (l₂ : LoadsAs io c p₂ q₂)
    (l₃ : LoadsAs io c p₃ q₃) (k y x : Nat) (hk : k < 2) (hy : y < c.height) (hx : x < c.width) : q₃ k y x = a * q₁ k y x + b * q₂ k y x := by
  obtain ⟨hh, hw, e₁⟩ := loads_as hio hH hW f₁ l₁
  obtain ⟨-, -, e₂⟩ := loads_as hio hH hW f₂ l₂
  obtain ⟨-, -, e₃⟩ := loads_as hio hH hW f₃ l₃
  rw [e₁ k y x hk hy hx, e₂ k y x hk hy hx, e₃ k y x hk hy hx]
  unfold loaded
  simp only [pass_linear hx hw]
  rw [pass_linear hy hh]
  ring

/-- **C197**, mirror images: a file whose rows or columns or both are in the opposite order is loaded with rows or columns in the opposite order: resizing shifts nothing. -/
theorem C197_mirror (io : Formats.MatIO) (hio : io.resizeFlow = resize) (c : Formats.MatCfg) (hH : 0 < c.height) (hW : 0 < c.width) (h w : Nat) (rows cols : Bool)
    (g : Nat → Nat → Nat → ℚ) (p₁ p₂ : String) (f₁ : FileHas io p₁ h w g)
    (f₂ : FileHas io p₂ h w (fun k y x => g k (if rows then h - 1 - y else y) (if cols then w - 1 - x else x))) (q₁ q₂ : Nat → Nat → Nat → ℚ)
    (l₁ : LoadsAs io c p₁ q₁) (l₂ : LoadsAs io c p₂ q₂) (k y x : Nat) (hk : k < 2) (hy : y < c.height) (hx : x < c.width) :
    q₂ k y x = q₁ k (if rows then c.height - 1 - y else y) (if cols then c.width - 1 - x else x) := by
  obtain ⟨hh, hw, e₁⟩ := loads_as hio hH hW f₁ l₁
  obtain ⟨-, -, e₂⟩ := loads_as hio hH hW f₂ l₂
  have hy' : (if rows then c.height - 1 - y else y) < c.height := by split <;> omega
  have hx' : (if cols then c.width - 1 - x else x) < c.width := by split <;> omega
  rw [e₁ k _ _ hk hy' hx', e₂ k y x hk hy hx]
  unfold loaded
  congr 1
  have mirror {n m i : Nat} (hi : i < m) (hn : 0 < n) (f : Nat → ℚ) : pass n m (fun x => f (n - 1 - x)) i = pass n m f (m - 1 - i) := by
    have := pass_mirror (i := m - 1 - i) (m := m) (by omega) hn f
    rwa [show m - 1 - (m - 1 - i) = i by omega] at this
  have mx (j : Nat) : pass w c.width (fun i => g k j (w - 1 - i)) x = pass w c.width (fun i => g k j i) (c.width - 1 - x) := mirror hx hw (fun i => g k j i)
  cases rows <;> cases cols <;> simp only [Bool.false_eq_true, if_false, if_true]
  · simp only [mx]
  · rw [mirror hy hh (fun j => pass w c.width (fun i => g k j i) x)]
  · simp only [mx]
    rw [mirror hy hh (fun j => pass w c.width (fun i => g k j i) (c.width - 1 - x))]

/-- **C197**, exchange of the axes: a file with x and y exchanged (rows and columns, `u` and `v`), loaded for the shape with height and width exchanged, is loaded with x and y exchanged:
nothing treats the axes differently. -/
theorem C197_axes (io : Formats.MatIO) (hio : io.resizeFlow = resize) (c c' : Formats.MatCfg) (hH : 0 < c.height) (hW : 0 < c.width) (hc₁ : c'.height = c.width)
    (hc₂ : c'.width = c.height) (h w : Nat) (g : Nat → Nat → Nat → ℚ) (p₁ p₂ : String) (f₁ : FileHas io p₁ h w g) (f₂ : FileHas io p₂ w h (fun k y x => g (1 - k) x y))
    (q₁ q₂ : Nat → Nat → Nat → ℚ) (l₁ : LoadsAs io c p₁ q₁) (l₂ : LoadsAs io c' p₂ q₂) (k y x : Nat) (hk : k < 2) (hy : y < c.height) (hx : x < c.width) :
    q₂ (1 - k) x y = q₁ k y x := by
  obtain ⟨hh, hw, e₁⟩ := loads_as hio hH hW f₁ l₁
  obtain ⟨-, -, e₂⟩ := loads_as hio (by omega) (by omega) f₂ l₂
  rw [e₁ k y x hk hy hx, e₂ (1 - k) x y (by omega) (by omega) (by omega), hc₁, hc₂]
  unfold loaded
  beta_reduce
  rw [show 1 - (1 - k) = k by omega, pass_comm hx hw hy hh (fun i j => g k j i)]
  have hk' : k = 0 ∨ k = 1 := by omega
  rcases hk' with rfl | rfl <;> simp

/-- **C197**, linear flows: if the stored size is a whole multiple of the requested one in each direction (512 or 1024 to 256), a flow field that is a linear function of the position is loaded, away from
the border, as that function at the centres of the larger pixels, in the units of the larger pixels. -/
theorem C197_affine (io : Formats.MatIO) (hio : io.resizeFlow = resize) (c : Formats.MatCfg) (ny nx : Nat) (α β γ : Nat → ℚ) (p : String)
    (hp : FileHas io p (ny * c.height) (nx * c.width) (fun k y x => α k + β k * x + γ k * y)) (q : Nat → Nat → Nat → ℚ) (l : LoadsAs io c p q) (k y x : Nat) (hk : k < 2)
    (hy₀ : 0 < y) (hy₁ : y + 1 < c.height) (hx₀ : 0 < x) (hx₁ : x + 1 < c.width) :
    q k y x = (α k + β k * (((x : ℚ) + 1 / 2) * nx - 1 / 2) + γ k * (((y : ℚ) + 1 / 2) * ny - 1 / 2)) / (if k = 0 then (nx : ℚ) else ny) := by
  obtain ⟨hh, hw, e⟩ := loads_as hio (by omega) (by omega) hp l
  have hny : 0 < ny := Nat.pos_of_mul_pos_right hh
  have hnx : 0 < nx := Nat.pos_of_mul_pos_right hw
  have hx : x < c.width := by omega
  have hy : y < c.height := by omega
  rw [e k y x hk hy hx]
  unfold loaded
  have inner (j : Nat) : pass (nx * c.width) c.width (fun i => α k + β k * (i : ℚ) + γ k * (j : ℚ)) x = (α k + β k * (((x : ℚ) + 1 / 2) * nx - 1 / 2)) * 1 + γ k * (j : ℚ) := by
    have : (fun i : Nat => α k + β k * (i : ℚ) + γ k * (j : ℚ)) = fun i : Nat => (α k + γ k * j) * (fun _ => (1 : ℚ)) i + β k * (fun i : Nat => (i : ℚ)) i := by
      funext i; ring
    rw [this, pass_linear hx hw, pass_const hx hw, pass_id hnx hx₀ hx₁]
    ring
  simp only [inner]
  have outer := pass_linear hy hh (α k + β k * (((x : ℚ) + 1 / 2) * nx - 1 / 2)) (γ k) (fun _ => (1 : ℚ)) (fun j : Nat => (j : ℚ))
  rw [outer, pass_const hy hh, pass_id hny hy₀ hy₁]
  have h1 : (nx : ℚ) ≠ 0 := by exact_mod_cast hnx.ne'
  have h2 : (ny : ℚ) ≠ 0 := by exact_mod_cast hny.ne'
  have h3 : (c.width : ℚ) ≠ 0 := by exact_mod_cast (show c.width ≠ 0 by omega)
  have h4 : (c.height : ℚ) ≠ 0 := by exact_mod_cast (show c.height ≠ 0 by omega)
  split
  · push_cast; field_simp
  · push_cast; field_simp

/-! ## A case -/

/-- The file `a` holds a flow field of 2 x 4, `b` the one with the columns in the opposite order. -/
def symIO : Formats.MatIO where
  scipy p := .ok [("V", if p = "a" then ⟨[2, 4, 2], [28, 0, 56, 0, 112, 0, 224, 28, 448, 0, 896, 0, 1792, 0, 3584, 84]⟩ else ⟨[2, 4, 2], [224, 28, 112, 0, 56, 0, 28, 0, 3584, 84, 1792, 0, 896, 0, 448, 0]⟩)]
  isHdf5 _ := false
  hdf5 _ := .error (.other 0)
  resizeImage a _ _ := .ok a
  resizeFlow := resize

/-- What `a` holds. -/
def symField (k y x : Nat) : ℚ := ([[[28, 56, 112, 224], [448, 896, 1792, 3584]], [[0, 0, 0, 28], [0, 0, 0, 84]]] : List (List (List ℚ))).getD k [] |>.getD y [] |>.getD x 0

private theorem stores_of {V : Arr ℚ} {h w : Nat} {g : Nat → Nat → Nat → ℚ} (h1 : V.shape = [h, w, 2]) (h2 : V.data.length = Arr.size V.shape)
    (h3 : ∀ k < 2, ∀ y < h, ∀ x < w, V.at? [y, x, k] = some (g k y x)) : Stores V h w g :=
  ⟨h2, .inl ⟨h1, fun k y x hk hy hx => h3 k hk y hy x hx⟩⟩

example : FileHas symIO "a" 2 4 symField ∧ FileHas symIO "b" 2 4 (fun k y x => symField k (if false then 2 - 1 - y else y) (if true then 4 - 1 - x else x)) :=
  ⟨⟨_, _, rfl, rfl, stores_of rfl rfl (by decide +kernel)⟩, ⟨_, _, rfl, rfl, stores_of rfl rfl (by decide +kernel)⟩⟩

/-- Loaded for 1 x 2, the second is the first in the opposite order. -/
example : (∃ s, Formats.matLoad symIO ⟨false, 1, 2⟩ "a" = .ok s ∧ s.flow = ⟨[1, 2, 2], [221, 0, 646, 12]⟩) ∧
    ∃ s, Formats.matLoad symIO ⟨false, 1, 2⟩ "b" = .ok s ∧ s.flow = ⟨[1, 2, 2], [646, 12, 221, 0]⟩ := by
  refine ⟨⟨_, rfl, ?_⟩, _, rfl, ?_⟩ <;> decide +kernel

end Verif.Pillow
