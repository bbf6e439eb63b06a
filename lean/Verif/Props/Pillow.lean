import Verif.Proofs.Pillow
import Verif.Props.Scripts
import Verif.Props.SynthUniform
/-!
# Properties C80, C132: resizing flows with Pillow's bilinear filter

Here the resampling that is a parameter elsewhere is Pillow's (`Model/Pillow.lean`, exact arithmetic).
-/

namespace Verif.Pillow
open Verif

/-! ## Specification -/

/-- The component `c` of the flow `f` (of `h` rows and `w` columns) lies between `lo` and `hi` at every pixel. -/
def Within (f : Arr ℚ) (h w c : Nat) (lo hi : ℚ) : Prop :=
  ∀ y x, y < h → x < w → ∃ q, f.at? [y, x, c] = some q ∧ lo ≤ q ∧ q ≤ hi

/-! ## What is assumed of Pillow elsewhere holds of this filter -/

/-- Resampling to positive sides succeeds. -/
theorem filter_total (a : Arr ℚ) (h0 w0 w h : Nat) (hs : a.shape = [h0, w0]) (hw : 0 < w) (hh : 0 < h) :
    ∃ r, resize a w h = .ok r ∧ r.shape = [h, w] ∧ r.WF := by
  obtain ⟨r, h1, h2, h3, _⟩ := resize_ok hs hw hh
  exact ⟨r, h1, h2, h3⟩

/-- The contract `PilOK` is met, as far as flows are concerned. -/
theorem filter_pilOK {io : Formats.MatIO} (hio : io.resizeFlow = resize)
    (himg : ∀ (a r : Arr ℚ) (w h : Nat), io.resizeImage a w h = .ok r → r.shape.take 2 = [h, w]) : Formats.PilOK io where
  flow a h0 w0 w h hs _ _ hw hh := by rw [hio]; exact filter_total a h0 w0 w h hs hw hh
  image := himg

/-- Resampling keeps constants: an image of one value becomes an image of that value. -/
theorem filter_constant {a r : Arr ℚ} {h0 w0 w h : Nat} {q : ℚ} (hh0 : 0 < h0) (hw0 : 0 < w0) (hs : a.shape = [h0, w0])
    (ha : ∀ y x, y < h0 → x < w0 → a.at? [y, x] = some q) (hr : resize a w h = .ok r) :
    ∀ y x, y < h → x < w → r.at? [y, x] = some q := by
  obtain ⟨_, _, h3⟩ := resize_range (lo := q) (hi := q) hs hh0 hw0 (fun y x hy hx => ⟨q, ha y x hy hx, le_refl _, le_refl _⟩) hr
  intro y x hy hx
  obtain ⟨p, hp, h1, h2⟩ := h3 y x hy hx
  rw [hp, le_antisymm h2 h1]

theorem filter_keeps {io : Formats.MatIO} (hio : io.resizeFlow = resize) : Scripts.KeepsConstants io := by
  intro a h0 w0 w h q hh0 hw0 hw hh hs _ ha
  obtain ⟨r, h1, h2, h3⟩ := filter_total a h0 w0 w h hs hw hh
  exact ⟨r, by rw [hio]; exact h1, h2, h3, filter_constant hh0 hw0 hs ha h1⟩

theorem filter_keeps' {io : Formats.MatIO} (hio : io.resizeFlow = resize) : Whole.KeepsConstants io := by
  intro a r h w H W c hs hh hw ha hr
  rw [hio] at hr
  exact filter_constant hh hw hs ha hr

/-- Resampling to the size the image has changes nothing. -/
theorem filter_same {a r : Arr ℚ} {h w : Nat} (hs : a.shape = [h, w]) (ha : a.WF) (hr : resize a w h = .ok r) :
    ∀ y x, y < h → x < w → r.at? [y, x] = a.at? [y, x] := by
  intro y x hy hx
  obtain ⟨r', hr', _, _, h3⟩ := resize_ok (a := a) (w := w) (h := h) hs (by omega) (by omega)
  rw [hr] at hr'
  cases hr'
  rw [h3 y x hy hx, pass_same hy, pass_same hx]
  have hl : y * w + x < a.data.length := by
    have : a.data.length = Arr.size a.shape := ha
    rw [this, hs]
    simp only [Arr.size, List.foldr, Nat.mul_one]
    nlinarith
  unfold Arr.at?
  rw [hs]
  simp [Arr.offset, hy, hx, Arr.size, List.getD_eq_getElem?_getD, List.getElem?_eq_getElem hl]


/-! ## C132: resizing stays within range -/

/-- Component `k` (0 for `u`, 1 for `v`) of the stored array `V`, which has the layout `(h, w, 2)` or `(2, h, w)`, lies between `lo` and
`hi` everywhere. -/
def StoredWithin (V : Arr ℚ) (h w k : Nat) (lo hi : ℚ) : Prop :=
  (V.shape = [h, w, 2] ∧ ∀ y x, y < h → x < w → ∃ q, V.at? [y, x, k] = some q ∧ lo ≤ q ∧ q ≤ hi) ∨
  (V.shape = [2, h, w] ∧ w ≠ 2 ∧ ∀ y x, y < h → x < w → ∃ q, V.at? [k, y, x] = some q ∧ lo ≤ q ∧ q ≤ hi)

/-- The size of the grid can be read off the stored array. -/
theorem component_size {V a : Arr ℚ} {h w h' w' k k' : Nat} {lo hi : ℚ} (hV : StoredWithin V h w k lo hi) (hc : Whole.Component V h' w' k' a) :
    h' = h ∧ w' = w := by
  obtain ⟨_, hc⟩ := hc
  rcases hV with ⟨e, _⟩ | ⟨e, hne, _⟩ <;> rcases hc with ⟨e', _⟩ | ⟨e', hne', _⟩ <;> rw [e] at e' <;>
    simp only [List.cons.injEq, and_true] at e'
  · exact ⟨e'.1.symm, e'.2.symm⟩
  · omega
  · omega
  · exact ⟨e'.2.1.symm, e'.2.2.symm⟩

theorem component_within {V a : Arr ℚ} {h w k : Nat} {lo hi : ℚ} (hV : StoredWithin V h w k lo hi) (hc : Whole.Component V h w k a) :
    ∀ y x, y < h → x < w → ∃ q, a.at? [y, x] = some q ∧ lo ≤ q ∧ q ≤ hi := by
  intro y x hy hx
  obtain ⟨_, hc⟩ := hc
  rcases hV with ⟨e, hr⟩ | ⟨e, hne, hr⟩ <;> rcases hc with ⟨e', hat⟩ | ⟨e', hne', hat⟩
  · rw [hat y x hy hx]; exact hr y x hy hx
  · rw [e] at e'; simp only [List.cons.injEq, and_true] at e'; omega
  · rw [e] at e'; simp only [List.cons.injEq, and_true] at e'; omega
  · rw [hat y x hy hx]; exact hr y x hy hx

/-- Range of the resampled component. -/
theorem resampled_within {a r : Arr ℚ} {h w H W : Nat} {lo hi : ℚ} (hh : 0 < h) (hw : 0 < w) (hs : a.shape = [h, w])
    (ha : ∀ y x, y < h → x < w → ∃ q, a.at? [y, x] = some q ∧ lo ≤ q ∧ q ≤ hi)
    (hr : (h = H ∧ w = W ∧ r = a) ∨ resize a W H = .ok r) :
    ∀ y x, y < H → x < W → ∃ q, r.at? [y, x] = some q ∧ lo ≤ q ∧ q ≤ hi := by
  rcases hr with ⟨rfl, rfl, rfl⟩ | hr
  · exact ha
  · exact (resize_range hs hh hw ha hr).2.2

theorem scaled_within {r : Option ℚ} {s lo hi : ℚ} (hs : 0 ≤ s) (h : ∃ q, r = some q ∧ lo ≤ q ∧ q ≤ hi) :
    ∃ q, r.map (· * s) = some q ∧ lo * s ≤ q ∧ q ≤ hi * s := by
  obtain ⟨q, rfl, h1, h2⟩ := h
  exact ⟨q * s, rfl, mul_le_mul_of_nonneg_right h1 hs, mul_le_mul_of_nonneg_right h2 hs⟩

/-- What `load_file` makes of the stored array stays within range. -/
theorem matFlow_within {io : Formats.MatIO} (hio : io.resizeFlow = resize) (c : Formats.MatCfg) (hH : 0 < c.height) (hW : 0 < c.width)
    {V f : Arr ℚ} (hwf : V.WF) {h w k : Nat} (hk : k < 2) {lo hi : ℚ} (hV : StoredWithin V h w k lo hi) (hf : Formats.matFlow io c V = .ok f) :
    f.shape = [c.height, c.width, 2] ∧ f.WF ∧ 0 < h ∧ 0 < w ∧
      Within f c.height c.width k (lo * (if k = 0 then (c.width : ℚ) / w else (c.height : ℚ) / h))
        (hi * (if k = 0 then (c.width : ℚ) / w else (c.height : ℚ) / h)) := by
  have hpil : Formats.PilOK { io with resizeImage := fun _ w h => .ok (Arr.zeros 0 [h, w]) } :=
    filter_pilOK hio (fun a r w h hr => by simp only [Except.ok.injEq] at hr; rw [← hr]; rfl)
  have hax : V.shape.length ≤ 3 := by
    rcases hV with ⟨e, _⟩ | ⟨e, _⟩ <;> rw [e] <;> simp
  have hf' : Formats.matFlow { io with resizeImage := fun _ w h => .ok (Arr.zeros 0 [h, w]) } c V = .ok f := hf
  obtain ⟨hs, hw', h', w', us, vs, ru, rv, hh, hw, cu, cv, hres, hat⟩ := Whole.matFlow_resized' hpil hH hW hwf hax hf'
  obtain ⟨rfl, rfl⟩ := component_size hV cu
  refine ⟨hs, hw', hh, hw, ?_⟩
  intro y x hy hx
  obtain ⟨a0, a1⟩ := hat y x hy hx
  have hdis : ((h' = c.height ∧ w' = c.width ∧ ru = us) ∨ resize us c.width c.height = .ok ru) ∧
      ((h' = c.height ∧ w' = c.width ∧ rv = vs) ∨ resize vs c.width c.height = .ok rv) := by
    split at hres
    · rename_i he
      simp only [Prod.mk.injEq] at he
      exact ⟨.inl ⟨he.1, he.2, hres.1⟩, .inl ⟨he.1, he.2, hres.2⟩⟩
    · dsimp only at hres
      rw [hio] at hres
      exact ⟨.inr hres.1, .inr hres.2⟩
  have hk' : k = 0 ∨ k = 1 := by omega
  rcases hk' with rfl | rfl
  · rw [if_pos rfl, a0]
    exact scaled_within (by positivity) (resampled_within hh hw cu.1 (component_within hV cu) hdis.1 y x hy hx)
  · rw [if_neg (by omega), a1]
    exact scaled_within (by positivity) (resampled_within hh hw cv.1 (component_within hV cv) hdis.2 y x hy hx)

/-- **C132** for loading: if component `k` of the stored flow lies between `lo` and `hi`, the loaded one lies between `lo` and `hi` times the
ratio of the sizes along that axis: no resizing makes a displacement larger than scaling does. -/
theorem C132_loaded_range (io : Formats.MatIO) (hio : io.resizeFlow = resize) (c : Formats.MatCfg) (hH : 0 < c.height) (hW : 0 < c.width)
    (p : String) (data : List (String × Arr ℚ)) (V : Arr ℚ) (hread : Formats.matRead io p = .ok data) (hV : data.lookup "V" = some V)
    (hwf : V.WF) (h w k : Nat) (hk : k < 2) (lo hi : ℚ) (hin : StoredWithin V h w k lo hi) (s : Base.Sample ℚ) (hs : Formats.matLoad io c p = .ok s) :
    s.flow.shape = [c.height, c.width, 2] ∧
      Within s.flow c.height c.width k (lo * (if k = 0 then (c.width : ℚ) / w else (c.height : ℚ) / h))
        (hi * (if k = 0 then (c.width : ℚ) / w else (c.height : ℚ) / h)) := by
  obtain ⟨h1, _, _, _, h2⟩ := matFlow_within hio c hH hW hwf hk hin (Formats.matLoad_flow hread hV hs)
  exact ⟨h1, h2⟩

/-- **C132** for packing and loading: the same range holds after both, whatever the target shape of the packing. -/
theorem C132_packed_range (io : Formats.MatIO) (hio : io.resizeFlow = resize) (th tw : Nat) (hth : 0 < th) (htw : 0 < tw) (c : Formats.MatCfg)
    (hH : 0 < c.height) (hW : 0 < c.width) (h w k : Nat) (hk : k < 2) (lo hi : ℚ) (flow packed : Arr ℚ) (hwf : flow.WF)
    (hsh : flow.shape = [h, w, 2]) (hin : Within flow h w k lo hi) (hp : Scripts.packFlow io th tw flow = .ok packed)
    (p : String) (data : List (String × Arr ℚ)) (hread : Formats.matRead io p = .ok data) (hV : data.lookup "V" = some packed)
    (s : Base.Sample ℚ) (hs : Formats.matLoad io c p = .ok s) :
    Within s.flow c.height c.width k (lo * (if k = 0 then (c.width : ℚ) / w else (c.height : ℚ) / h))
        (hi * (if k = 0 then (c.width : ℚ) / w else (c.height : ℚ) / h)) := by
  have hp' : Formats.matFlow io ⟨false, th, tw⟩ flow = .ok packed := by
    unfold Formats.matFlow
    simp only [hsh, List.getElem?_cons_succ, List.getElem?_cons_zero, true_or, if_true]
    exact hp
  obtain ⟨p1, p2, p3, p4, p5⟩ := matFlow_within hio ⟨false, th, tw⟩ hth htw hwf hk (.inl ⟨hsh, hin⟩) hp'
  dsimp only at p1 p5
  obtain ⟨_, h2⟩ := C132_loaded_range io hio c hH hW p data packed hread hV p2 th tw k hk _ _ (.inl ⟨p1, p5⟩) s hs
  have twq : (tw : ℚ) ≠ 0 := by exact_mod_cast htw.ne'
  have thq : (th : ℚ) ≠ 0 := by exact_mod_cast hth.ne'
  have e : ∀ q : ℚ, q * (if k = 0 then (tw : ℚ) / w else (th : ℚ) / h) * (if k = 0 then (c.width : ℚ) / tw else (c.height : ℚ) / th) =
      q * (if k = 0 then (c.width : ℚ) / w else (c.height : ℚ) / h) := by
    intro q
    split
    · rw [mul_assoc, mul_comm ((tw : ℚ) / w), div_mul_div_cancel₀ twq]
    · rw [mul_assoc, mul_comm ((th : ℚ) / h), div_mul_div_cancel₀ thq]
  rw [e, e] at h2
  exact h2

/-- A file with the flow given, and Pillow. -/
def demoIO (v : Arr ℚ) : Formats.MatIO where
  scipy _ := .ok [("V", v)]
  isHdf5 _ := false
  hdf5 _ := .error .valueError
  resizeImage a _ _ := .ok a
  resizeFlow := resize

/-- The hypotheses are met: of a flow of 2 x 2 pixels, loaded as 2 x 4, the `u` component. -/
example : ∃ s, Formats.matLoad (demoIO ⟨[2, 2, 2], [0, 1, 8, 1, 0, 1, 8, 1]⟩) ⟨false, 2, 4⟩ "m" = .ok s ∧
    s.flow = ⟨[2, 4, 2], [0, 1, 4, 1, 12, 1, 16, 1, 0, 1, 4, 1, 12, 1, 16, 1]⟩ := by
  refine ⟨_, rfl, ?_⟩
  decide +kernel

/-! ## C80 -/

/-- **C80** with Pillow's filter, for uniform flows. -/
theorem C80_pillow_uniform_partial (io : Formats.MatIO) (hio : io.resizeFlow = resize) (h w th tw : Nat) (hh : 0 < h) (hw : 0 < w) (hth : 0 < th)
    (htw : 0 < tw) (u v : ℚ) (flow : Arr ℚ) (hf : Scripts.Uniform flow h w u v) (c : Formats.MatCfg) (hH : 0 < c.height)
    (hW : 0 < c.width) (p : String) :
    ∃ packed, Scripts.packFlow io th tw flow = .ok packed ∧
      ∀ data, Formats.matRead io p = .ok data → data.lookup "V" = some packed → ∀ s, Formats.matLoad io c p = .ok s →
        Scripts.Uniform s.flow c.height c.width (u * ((c.width : ℚ) / w)) (v * ((c.height : ℚ) / h)) :=
  Scripts.C80_packed_uniform_partial io (filter_keeps hio) h w th tw hh hw hth htw u v flow hf c hH hW p

/-- **C80** for all flows and any resampling, if the flow is packed at the size it has, or at the size at which it is loaded: what is loaded is
what would be loaded without packing. -/
theorem C80_packed_direct_partial (io : Formats.MatIO) (th tw : Nat) (c : Formats.MatCfg) (h w : Nat) (hh : 0 < h) (hw : 0 < w) (flow packed : Arr ℚ)
    (hsh : flow.shape = [h, w, 2]) (hsize : (th, tw) = (h, w) ∨ (th, tw) = (c.height, c.width))
    (hres : ∀ (a r : Arr ℚ) (w h : Nat), io.resizeFlow a w h = .ok r → r.shape = [h, w])
    (hp : Scripts.packFlow io th tw flow = .ok packed) : Formats.matFlow io c packed = Formats.matFlow io c flow := by
  have hfl : Formats.matFlow io c flow = Formats.matFit io c flow := by
    unfold Formats.matFlow
    simp [hsh]
  rcases hsize with e | e <;> simp only [Prod.mk.injEq] at e <;> obtain ⟨rfl, rfl⟩ := e
  · unfold Scripts.packFlow Formats.matFit at hp
    rw [if_pos (by simp [hsh])] at hp
    cases hp
    rfl
  · rw [hfl]
    have hp' : Formats.matFit io c flow = .ok packed := hp
    rw [hp']
    have hps : packed.shape = [c.height, c.width, 2] := by
      unfold Formats.matFit at hp'
      split at hp'
      · rename_i ht
        cases hp'
        rw [hsh] at ht ⊢
        simp only [List.take_succ_cons, List.take_zero, List.cons.injEq, and_true] at ht
        rw [ht.1, ht.2]
      · simp only [hsh] at hp'
        rw [if_neg (by omega)] at hp'
        split at hp'
        · rename_i u v hu hv
          have su := hres _ _ _ _ hu
          have sv := hres _ _ _ _ hv
          unfold Formats.stackScaled at hp'
          simp only [su, sv] at hp'
          rw [if_pos trivial] at hp'
          cases hp'
          rfl
        · cases hp'
        · cases hp'
    unfold Formats.matFlow
    simp only [hps, List.getElem?_cons_succ, List.getElem?_cons_zero, true_or, if_true]
    unfold Formats.matFit
    rw [if_pos (by simp [hps])]

/-- The hypotheses are met: a flow of 1 x 2 pixels packed at 1 x 4 and loaded at 1 x 4; Pillow gives arrays of the shape asked for. -/
example : (∀ (a r : Arr ℚ) (w h : Nat), resize a w h = .ok r → r.shape = [h, w]) ∧
    ∃ packed, Scripts.packFlow (demoIO ⟨[], []⟩) 1 4 ⟨[1, 2, 2], [0, 1, 4, 1]⟩ = .ok packed ∧
      packed = ⟨[1, 4, 2], [0, 1, 2, 1, 6, 1, 8, 1]⟩ := by
  refine ⟨?_, _, rfl, ?_⟩
  · intro a r w h hr
    unfold resize at hr
    split at hr
    · split at hr
      · cases hr
      · cases hr; rfl
    · cases hr
  · decide +kernel

/-- C80 is false for flows that are not uniform: a flow of 1 x 2 pixels, packed at 1 x 1 and loaded at 1 x 2, has lost the difference between
its pixels; packed at 1 x 2, it is loaded as it was. -/
theorem C80_refuted : ∃ (flow packed packed' : Arr ℚ) (s s' : Base.Sample ℚ), flow = ⟨[1, 2, 2], [0, 1, 4, 1]⟩ ∧
    Scripts.packFlow (demoIO flow) 1 1 flow = .ok packed ∧ Scripts.packFlow (demoIO flow) 1 2 flow = .ok packed' ∧
    Formats.matLoad (demoIO packed) ⟨false, 1, 2⟩ "m" = .ok s ∧ Formats.matLoad (demoIO packed') ⟨false, 1, 2⟩ "m" = .ok s' ∧
    s'.flow = flow ∧ s.flow = ⟨[1, 2, 2], [2, 1, 2, 1]⟩ := by
  refine ⟨_, _, _, _, _, rfl, rfl, rfl, rfl, rfl, ?_, ?_⟩ <;> decide +kernel

end Verif.Pillow
