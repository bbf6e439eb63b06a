import Verif.Proofs.Unseen
import Verif.Props.Superposition
/-!
# Only the part of the flow field around the image matters (C150)
-/

namespace Verif.Unseen
open Verif Interp Adapter

/-! ## Lemmas -/

/-- Flow fields that are the same where they are defined. -/
def Same (f g : Field2 ℚ) : Prop := f.H = g.H ∧ f.W = g.W ∧ ∀ j i, j < f.H → i < f.W → f.at_ j i = g.at_ j i

theorem rows_congr {f g : Field2 ℚ} (h : Same f g) : rows f = rows g := by
  unfold rows
  rw [← h.1, ← h.2.1]
  refine List.map_congr_left (fun j hj => List.map_congr_left (fun i hi => h.2.2 j i (List.mem_range.1 hj) (List.mem_range.1 hi)))

/-- Sampling at points around which two flow fields are the same. -/
theorem sample_same {f g : Field2 ℚ} (hH : 0 < f.H) (hW : 0 < f.W) (eH : f.H = g.H) (eW : f.W = g.W) (p : Nat × Nat) (h w : Nat) (ys xs : Nat → ℚ)
    (hyx : ∀ j i, j < f.H → i < f.W → (∃ k, k < h ∧ |(j : ℚ) - clipCo f.H (ys k - p.1)| < 1) → (∃ k, k < w ∧ |(i : ℚ) - clipCo f.W (xs k - p.2)| < 1) →
      f.at_ j i = g.at_ j i) :
    Same (sample (padEdge p f) h w ys xs) (sample (padEdge p g) h w ys xs) := by
  refine ⟨rfl, rfl, fun j i hj hi => ?_⟩
  have key : ∀ c : ℚ × ℚ → ℚ, bilinear (fun j i => c ((padEdge p f).at_ j i)) (f.H + p.1) (f.W + p.2) (xs i) (ys j) =
      bilinear (fun j i => c ((padEdge p g).at_ j i)) (g.H + p.1) (g.W + p.2) (xs i) (ys j) := by
    intro c
    have e1 := bilinear_pad hH hW p (fun j i => c (f.at_ j i)) (xs i) (ys j)
    have e2 := bilinear_pad (eH ▸ hH) (eW ▸ hW) p (fun j i => c (g.at_ j i)) (xs i) (ys j)
    refine e1.trans (Eq.trans ?_ e2.symm)
    rw [← eH, ← eW]
    exact bilinear_local hH hW _ _ (fun j' i' hj' hi' a b => congrArg c (hyx j' i' hj' hi' ⟨j, hj, a⟩ ⟨i, hi, b⟩))
  exact Prod.ext (key Prod.fst) (key Prod.snd)

/-- The motion of particles looks at a flow field only where it is defined. -/
theorem move_same {f g : Field2 ℚ} (hH : 0 < f.H) (hW : 0 < f.W) (h : Same f g) (bounds : Nat × Nat) (dt resX resY y x : ℚ) :
    move bounds f dt resX resY y x = move bounds g dt resX resY y x := by
  have key : ∀ c : ℚ × ℚ → ℚ, ∀ x y, bilinear (fun j i => c (f.at_ j i)) f.H f.W x y = bilinear (fun j i => c (g.at_ j i)) g.H g.W x y := by
    intro c x y
    rw [← h.1, ← h.2.1]
    exact bilinear_local hH hW _ _ (fun j i hj hi _ _ => congrArg c (h.2.2 j i hj hi))
  have k1 := key Prod.fst
  have k2 := key Prod.snd
  unfold move Apply.step2
  simp only [if_true, one_ne_zero, if_false]
  rw [k1, k2, h.1, h.2.1]

theorem maxDiameter_le {p : Generate.Params ℚ} (hne : 0 < p.diameterRanges.length) {d : ℚ} (h : ∀ r ∈ p.diameterRanges, r.2 ≤ d) :
    Generate.maxDiameter p ≤ d := by
  unfold Generate.maxDiameter
  have hl : ∀ x ∈ p.diameterRanges.map Prod.snd, x ≤ d := by
    intro x hx
    obtain ⟨r, hr, rfl⟩ := List.mem_map.1 hx
    exact h r hr
  have hz : (p.diameterRanges.map Prod.snd).headD 0 ≤ d := by
    cases hp : p.diameterRanges.map Prod.snd with
    | nil => rw [← List.length_map (f := Prod.snd), hp] at hne; simp at hne
    | cons x l => exact hl x (by rw [hp]; exact List.mem_cons_self)
  generalize (p.diameterRanges.map Prod.snd).headD 0 = z at hz
  generalize p.diameterRanges.map Prod.snd = l at hl
  induction l generalizing z with
  | nil => exact hz
  | cons x l ih =>
    rw [List.foldl_cons]
    exact ih _ (max_le hz (hl x List.mem_cons_self)) (fun y hy => hl y (List.mem_cons_of_mem _ hy))

/-- The margin of the region is at most the reach of the fastest particle and the extension. -/
theorem margin_le {a : Synthetic.Args} {e s : ℚ} (hspec : Synthetic.specOK a.spec a.imgOffset = true) (hR : 0 < a.resolution) (he : Extension a e) (hs : 0 ≤ s) :
    Geometry.margin a.geometry (max 0 a.maxSpeedX) (max 0 a.maxSpeedY) s ≤ s * a.spec.dt + e := by
  unfold Synthetic.specOK at hspec
  simp only [Bool.and_eq_true, decide_eq_true_eq] at hspec
  have hdt : 0 < a.spec.dt := hspec.2
  have hlen : 0 < a.spec.diameterRanges.length := by tauto
  have hall : a.spec.diameterRanges.all (fun r => decide (0 < r.1 ∧ r.1 ≤ r.2)) = true := by tauto
  unfold Geometry.margin
  show s * a.spec.dt + _ ≤ _
  refine add_le_add_right ?_ _
  unfold Geometry.extra
  split
  · rename_i hext
    unfold Geometry.extended at hext
    rw [Bool.and_eq_true] at hext
    have hid : Synthetic.hidden a.spec = true := hext.1
    unfold Synthetic.hidden at hid
    simp only [Bool.or_eq_true, decide_eq_true_eq] at hid
    obtain ⟨d, hd, hde⟩ := he.2 (by tauto)
    have hmax := maxDiameter_le hlen hd
    have hmax0 : 0 ≤ Generate.maxDiameter a.spec := by
      obtain ⟨r, hr⟩ := List.exists_mem_of_length_pos hlen
      have h1 := List.all_eq_true.1 hall r hr
      simp only [decide_eq_true_eq] at h1
      have h2 : r.2 ≤ Generate.maxDiameter a.spec := by
        unfold Generate.maxDiameter
        have : r.2 ∈ a.spec.diameterRanges.map Prod.snd := List.mem_map.2 ⟨r, hr, rfl⟩
        generalize (a.spec.diameterRanges.map Prod.snd).headD 0 = z
        generalize a.spec.diameterRanges.map Prod.snd = l at this
        have mono : ∀ (l : List ℚ) z, z ≤ l.foldl max z := by
          intro l
          induction l with
          | nil => intro z; exact le_refl _
          | cons x l ih => intro z; rw [List.foldl_cons]; exact (le_max_left _ _).trans (ih _)
        induction l generalizing z with
        | nil => cases this
        | cons x l ih =>
          rw [List.foldl_cons]
          rcases List.mem_cons.1 this with h | h
          · rw [h]; exact (le_max_right _ _).trans (mono _ _)
          · exact ih _ h
      linarith [h1.1, h1.2]
    refine max_le he.1 ?_
    refine le_trans ?_ hde
    unfold Geometry.particleSize Geometry.patchRadius
    simp only [id]
    have hnn : 0 ≤ s * a.spec.dt := mul_nonneg hs hdt.le
    have hf := Int.floor_le (3 * Generate.maxDiameter a.spec / 2)
    show ((2 * trunc (3 * Generate.maxDiameter a.spec / 2) + 1 : Int) : ℚ) / a.resolution - s * a.spec.dt ≤ _
    rw [Geometry.trunc_nonneg (by positivity)]
    have : ((2 * ⌊3 * Generate.maxDiameter a.spec / 2⌋ + 1 : Int) : ℚ) / a.resolution ≤ (3 * d + 1) / a.resolution := by
      refine div_le_div_of_nonneg_right ?_ hR.le
      push_cast
      linarith
    linarith
  · exact he.1

/-- What the two functions of the sampler do with flow fields that are the same where it matters. -/
theorem gen_same {R : Generate.Rand ℚ} {a : Synthetic.Args} {m : Synthetic.Made} (hm : Synthetic.make id id a = .ok m) {e : ℚ} (he : Extension a e)
    {X : Type} (φ φ' : X → Field2 ℚ) (hs : ∀ x, ((φ x).H, (φ x).W) = a.flowShape) (hs' : ∀ x, ((φ' x).H, (φ' x).W) = a.flowShape)
    (hsame : ∀ x j i, j < a.flowShape.1 → i < a.flowShape.2 → Matters a e j i → (φ x).at_ j i = (φ' x).at_ j i) :
    Sampler.GenRel (fun f f' => ∃ x, f = φ x ∧ f' = φ' x) (fun f f' => Same f f' ∧ 0 < f.H ∧ 0 < f.W) Same Eq
      (Synthetic.gen id id R a m) (Synthetic.gen id id R a m) := by
  obtain ⟨hspec, _, _, _, _, _, _, hgeo, _⟩ := Synthetic.make_ok hm
  obtain ⟨b1, b2, b3, b4, hR, _, _, b8, b9, b10, b11, hg⟩ := Geometry.build_ok hgeo
  have hspec' := hspec
  unfold Synthetic.specOK at hspec'
  simp only [Bool.and_eq_true, decide_eq_true_eq] at hspec'
  have hdt : 0 < a.spec.dt := hspec'.2
  have hshape : 0 < a.spec.imageShape.1 ∧ 0 < a.spec.imageShape.2 := by tauto
  have hoff : 0 ≤ a.imgOffset.1 ∧ 0 ≤ a.imgOffset.2 := by tauto
  obtain ⟨s1, s2, s3⟩ := Geometry.store_eq (fl32 := id) (a := a.geometry) hdt.le hR (le_max_left 0 a.maxSpeedX) (le_max_left 0 a.maxSpeedY)
    (min_le_left 0 a.minSpeedX) (min_le_left 0 a.minSpeedY)
  have hmar : ∀ s, 0 ≤ s → 0 ≤ Geometry.margin a.geometry (max 0 a.maxSpeedX) (max 0 a.maxSpeedY) s := fun s hs =>
    add_nonneg (mul_nonneg hs hdt.le) (Geometry.extra_nonneg _ _ _ _)
  have mY := hmar _ (le_max_left 0 a.maxSpeedY)
  have mX := hmar _ (le_max_left 0 a.maxSpeedX)
  have lY := margin_le hspec hR he (le_max_left 0 a.maxSpeedY)
  have lX := margin_le hspec hR he (le_max_left 0 a.maxSpeedX)
  have g1 : m.geo.imgOffset = (⌊Geometry.margin a.geometry (max 0 a.maxSpeedX) (max 0 a.maxSpeedY) (max 0 a.maxSpeedY) * a.resolution⌋,
      ⌊Geometry.margin a.geometry (max 0 a.maxSpeedX) (max 0 a.maxSpeedY) (max 0 a.maxSpeedX) * a.resolution⌋) := by rw [hg]; exact s1
  have ebounds : ∀ s t n, Geometry.axisBounds a.geometry (max 0 a.maxSpeedX) (max 0 a.maxSpeedY) s t n =
      ⌊(n : ℚ) + Geometry.margin a.geometry (max 0 a.maxSpeedX) (max 0 a.maxSpeedY) s * a.resolution + (-(t * a.spec.dt)) * a.resolution⌋ := by
    intro s t n
    show ⌊_⌋ = ⌊_⌋
    congr 1
    show _ + _ * a.resolution - t * a.spec.dt * a.resolution = _
    ring
  have g2 : m.geo.bounds = _ := (congrArg Geometry.Geo.bounds hg).trans s2
  rw [ebounds, ebounds] at g2
  have g3 : m.geo.boundsOffset = _ := (congrArg Geometry.Geo.boundsOffset hg).trans s3
  have g4 : m.geo.res = ((a.flowShape.1 : ℚ) / a.flowFieldSize.1, (a.flowShape.2 : ℚ) / a.flowFieldSize.2) := by rw [hg]; rfl
  have g5 : m.geo.padding = (⌈max 0 (-(a.imgOffset.1 - Geometry.margin a.geometry (max 0 a.maxSpeedX) (max 0 a.maxSpeedY) (max 0 a.maxSpeedY))) *
        ((a.flowShape.1 : ℚ) / a.flowFieldSize.1)⌉,
      ⌈max 0 (-(a.imgOffset.2 - Geometry.margin a.geometry (max 0 a.maxSpeedX) (max 0 a.maxSpeedY) (max 0 a.maxSpeedX))) *
        ((a.flowShape.2 : ℚ) / a.flowFieldSize.2)⌉) := by
    rw [hg]
    simp only [Geometry.store, Geometry.offset1_eq, id]
    rfl
  generalize Geometry.margin a.geometry (max 0 a.maxSpeedX) (max 0 a.maxSpeedY) (max 0 a.maxSpeedY) = My at *
  generalize Geometry.margin a.geometry (max 0 a.maxSpeedX) (max 0 a.maxSpeedY) (max 0 a.maxSpeedX) = Mx at *
  have r1 : 0 < (a.flowShape.1 : ℚ) / a.flowFieldSize.1 := div_pos (by exact_mod_cast b3) b1
  have r2 : 0 < (a.flowShape.2 : ℚ) / a.flowFieldSize.2 := div_pos (by exact_mod_cast b4) b2
  have my : 0 ≤ -(min 0 a.minSpeedY * a.spec.dt) := by
    have := mul_nonneg (neg_nonneg.2 (min_le_left 0 a.minSpeedY)) hdt.le
    linarith
  have mx : 0 ≤ -(min 0 a.minSpeedX * a.spec.dt) := by
    have := mul_nonneg (neg_nonneg.2 (min_le_left 0 a.minSpeedX)) hdt.le
    linarith
  have py := axis_points (o := a.imgOffset.1) (n := a.spec.imageShape.1) hR r1 mY my hoff.1 hshape.1
  have px := axis_points (o := a.imgOffset.2) (n := a.spec.imageShape.2) hR r2 mX mx hoff.2 hshape.2
  dsimp only at py px
  have nY : ∀ {Y : ℚ} {j : Nat}, (a.imgOffset.1 - My) * ((a.flowShape.1 : ℚ) / a.flowFieldSize.1) - 1 < max Y 0 →
      Y < (a.imgOffset.1 + (a.spec.imageShape.1 : ℚ) / a.resolution + -(min 0 a.minSpeedY * a.spec.dt)) * ((a.flowShape.1 : ℚ) / a.flowFieldSize.1) →
      |(j : ℚ) - clipCo a.flowShape.1 Y| < 1 →
      Near a.imgOffset.1 (a.spec.imageShape.1 / a.resolution) a.maxSpeedY a.minSpeedY a.spec.dt e (a.flowShape.1 / a.flowFieldSize.1) j := by
    intro Y j h1 h2 h3
    have hlen : 0 < (a.spec.imageShape.1 : ℚ) / a.resolution := div_pos (by exact_mod_cast hshape.1) hR
    have hfit : (a.imgOffset.1 - My) * ((a.flowShape.1 : ℚ) / a.flowFieldSize.1) ≤ a.flowShape.1 := by
      have : a.imgOffset.1 - My ≤ a.flowFieldSize.1 := by
        have : a.imgOffset.1 + (a.spec.imageShape.1 : ℚ) / a.resolution - min 0 a.minSpeedY * a.spec.dt ≤ a.flowFieldSize.1 := b10
        linarith
      refine (mul_le_mul_of_nonneg_right this r1.le).trans (le_of_eq (mul_div_cancel₀ _ ?_))
      exact ne_of_gt b1
    obtain ⟨q1, q2⟩ := near_of_point b3 r1 hoff.1 hlen my hfit h1 h2 h3
    refine ⟨?_, by rw [sub_eq_add_neg]; exact q2⟩
    have : (a.imgOffset.1 - max 0 a.maxSpeedY * a.spec.dt - e) * ((a.flowShape.1 : ℚ) / a.flowFieldSize.1) ≤
        (a.imgOffset.1 - My) * ((a.flowShape.1 : ℚ) / a.flowFieldSize.1) := mul_le_mul_of_nonneg_right (by linarith) r1.le
    linarith
  have nX : ∀ {Y : ℚ} {j : Nat}, (a.imgOffset.2 - Mx) * ((a.flowShape.2 : ℚ) / a.flowFieldSize.2) - 1 < max Y 0 →
      Y < (a.imgOffset.2 + (a.spec.imageShape.2 : ℚ) / a.resolution + -(min 0 a.minSpeedX * a.spec.dt)) * ((a.flowShape.2 : ℚ) / a.flowFieldSize.2) →
      |(j : ℚ) - clipCo a.flowShape.2 Y| < 1 →
      Near a.imgOffset.2 (a.spec.imageShape.2 / a.resolution) a.maxSpeedX a.minSpeedX a.spec.dt e (a.flowShape.2 / a.flowFieldSize.2) j := by
    intro Y j h1 h2 h3
    have hlen : 0 < (a.spec.imageShape.2 : ℚ) / a.resolution := div_pos (by exact_mod_cast hshape.2) hR
    have hfit : (a.imgOffset.2 - Mx) * ((a.flowShape.2 : ℚ) / a.flowFieldSize.2) ≤ a.flowShape.2 := by
      have : a.imgOffset.2 - Mx ≤ a.flowFieldSize.2 := by
        have : a.imgOffset.2 + (a.spec.imageShape.2 : ℚ) / a.resolution - min 0 a.minSpeedX * a.spec.dt ≤ a.flowFieldSize.2 := b11
        linarith
      refine (mul_le_mul_of_nonneg_right this r2.le).trans (le_of_eq (mul_div_cancel₀ _ ?_))
      exact ne_of_gt b2
    obtain ⟨q1, q2⟩ := near_of_point b4 r2 hoff.2 hlen mx hfit h1 h2 h3
    refine ⟨?_, by rw [sub_eq_add_neg]; exact q2⟩
    have : (a.imgOffset.2 - max 0 a.maxSpeedX * a.spec.dt - e) * ((a.flowShape.2 : ℚ) / a.flowFieldSize.2) ≤
        (a.imgOffset.2 - Mx) * ((a.flowShape.2 : ℚ) / a.flowFieldSize.2) := mul_le_mul_of_nonneg_right (by linarith) r2.le
    linarith
  refine ⟨?_, ?_⟩
  · rintro _ _ ⟨x, rfl, rfl⟩
    have h1 : (φ x).H = a.flowShape.1 := congrArg Prod.fst (hs x)
    have h2 : (φ x).W = a.flowShape.2 := congrArg Prod.snd (hs x)
    have h1' : (φ' x).H = a.flowShape.1 := congrArg Prod.fst (hs' x)
    have h2' : (φ' x).W = a.flowShape.2 := congrArg Prod.snd (hs' x)
    have fH : 0 < (φ x).H := by rw [h1]; exact b3
    have fW : 0 < (φ x).W := by rw [h2]; exact b4
    have S : ∀ (h w : Nat) (ys xs : Nat → ℚ),
        (∀ k, k < h → (a.imgOffset.1 - My) * ((a.flowShape.1 : ℚ) / a.flowFieldSize.1) - 1 < max (ys k - (m.geo.padding.1.toNat : ℚ)) 0 ∧
          ys k - (m.geo.padding.1.toNat : ℚ) <
            (a.imgOffset.1 + (a.spec.imageShape.1 : ℚ) / a.resolution + -(min 0 a.minSpeedY * a.spec.dt)) * ((a.flowShape.1 : ℚ) / a.flowFieldSize.1)) →
        (∀ k, k < w → (a.imgOffset.2 - Mx) * ((a.flowShape.2 : ℚ) / a.flowFieldSize.2) - 1 < max (xs k - (m.geo.padding.2.toNat : ℚ)) 0 ∧
          xs k - (m.geo.padding.2.toNat : ℚ) <
            (a.imgOffset.2 + (a.spec.imageShape.2 : ℚ) / a.resolution + -(min 0 a.minSpeedX * a.spec.dt)) * ((a.flowShape.2 : ℚ) / a.flowFieldSize.2)) →
        Same (sample (padEdge (m.geo.padding.1.toNat, m.geo.padding.2.toNat) (φ x)) h w ys xs)
          (sample (padEdge (m.geo.padding.1.toNat, m.geo.padding.2.toNat) (φ' x)) h w ys xs) := by
      intro h w ys xs hys hxs
      refine sample_same fH fW (h1.trans h1'.symm) (h2.trans h2'.symm) _ h w ys xs ?_
      rintro j i hj hi ⟨k, hk, hk'⟩ ⟨l, hl, hl'⟩
      rw [h1] at hj hk'
      rw [h2] at hi hl'
      exact hsame x j i hj hi ⟨nY (hys k hk).1 (hys k hk).2 hk', nX (hxs l hl).1 (hxs l hl).2 hl'⟩
    constructor
    · have hr : Same (resized (ofGeo a.geometry m.geo m.outShape (m.cfg.batchSize / m.cfg.ndevices) m.pixels)
            (padEdge (m.geo.padding.1.toNat, m.geo.padding.2.toNat) (φ x)))
          (resized (ofGeo a.geometry m.geo m.outShape (m.cfg.batchSize / m.cfg.ndevices) m.pixels)
            (padEdge (m.geo.padding.1.toNat, m.geo.padding.2.toNat) (φ' x))) := by
        unfold resized
        refine S _ _ _ _ ?_ ?_
        · intro k hk
          have := py.1 _ _ hk
          simp only [ofGeo, g1, g3, g4, g5]
          exact this
        · intro k hk
          have := px.1 _ _ hk
          simp only [ofGeo, g1, g3, g4, g5]
          exact this
      show Same (units _ _) (units _ _)
      unfold units
      split
      · exact ⟨hr.1, hr.2.1, fun j i hj hi => congrArg (fun v : ℚ × ℚ => (v.1 * (a.resolution * a.spec.dt), v.2 * (a.resolution * a.spec.dt))) (hr.2.2 j i hj hi)⟩
      · exact hr
    · refine ⟨?_, ?_, ?_⟩
      · show Same (region id _ _) (region id _ _)
        unfold region
        refine S _ _ _ _ ?_ ?_
        · intro k hk
          simp only [ofGeo, g2, g3, g4] at hk ⊢
          rw [g5]
          exact py.2 k hk
        · intro k hk
          simp only [ofGeo, g2, g3, g4] at hk ⊢
          rw [g5]
          exact px.2 k hk
      · show 0 < count id _ _ _
        unfold count
        omega
      · show 0 < count id _ _ _
        unfold count
        omega
  · rintro k b i f f' ⟨h, hH, hW⟩
    show Synthetic.render id id R a m k b i f = Synthetic.render id id R a m k b i f'
    unfold Synthetic.render Generate.pair
    simp only [List.length_singleton, Nat.mod_one, List.getD_cons_zero]
    congr 2
    refine List.map_congr_left (fun n _ => ?_)
    unfold Generate.particle2
    simp only [move_same hH hW h]

/-! ## C150 -/

/-- **C150.** In exact arithmetic, for every synthetic sampler that can be built, every scheduler, all histories of calls and any two ways of
turning what the scheduler delivers into flow fields of the declared shape: if they agree at the grid points around the window from
which a particle can reach it (`Matters`), every call shows the same. -/
theorem C150_only_around (R : Generate.Rand ℚ) (a : Synthetic.Args) (m : Synthetic.Made) (hm : Synthetic.make id id a = .ok m) (e : ℚ) (he : Extension a e)
    (S X : Type) (sch : Sampler.ISched S (Sampler.FlowBatch X)) (φ φ' : X → Field2 ℚ)
    (hs : ∀ x, ((φ x).H, (φ x).W) = a.flowShape) (hs' : ∀ x, ((φ' x).H, (φ' x).W) = a.flowShape)
    (hsame : ∀ x j i, j < a.flowShape.1 → i < a.flowShape.2 → Matters a e j i → (φ x).at_ j i = (φ' x).at_ j i) (s : S) (ops : List Sampler.Op) :
    (Sampler.run (Units.sched (Units.flowBatch φ) sch) (Synthetic.gen id id R a m) m.cfg ops (Sampler.init m.cfg s)).map (fun q => q.1.map (Units.out rows)) =
      (Sampler.run (Units.sched (Units.flowBatch φ') sch) (Synthetic.gen id id R a m) m.cfg ops (Sampler.init m.cfg s)).map
        (fun q => q.1.map (Units.out rows)) := by
  rcases Sampler.run_rel (gen_same (R := R) hm he φ φ' hs hs' hsame) (Superposition.sched_rel φ φ' sch) m.cfg ops (Sampler.init_rel _ _ m.cfg s) with
    ⟨h1, h2⟩ | ⟨os, os', t, t', h1, h2, h3⟩
  · rw [h1, h2]
  · rw [h1, h2]
    refine congrArg some ?_
    show os.map (Units.out rows) = os'.map (Units.out rows)
    rw [← List.forall₂_eq_eq_eq, List.forall₂_map_left_iff, List.forall₂_map_right_iff]
    refine h3.imp (fun o o' h => ?_)
    cases o <;> cases o' <;> first | exact h.elim | skip
    · obtain ⟨q1, q2, q3, q4, q5⟩ := h
      refine congrArg Sampler.Out.batch ?_
      have e1 := List.forall₂_eq_eq_eq (α := Synthetic.Pair) ▸ q1
      have e2 : List.Forall₂ Eq _ _ := List.forall₂_map_left_iff.2 (List.forall₂_map_right_iff.2 (q2.imp (fun _ _ h => rows_congr h)))
      rw [List.forall₂_eq_eq_eq] at e2
      rw [e1, e2, q3, q4, q5]
    · exact congrArg Sampler.Out.raised h
    · rfl

/-- Arguments for an example: a field of 20 by 20, a window of 5 by 5 at `(6, 6)`, and speeds between -6 and 2. -/
def demoArgs : Synthetic.Args := { Synthetic.demoShift with spec := { Synthetic.demoShift.spec with densityRange := (1 / 25, 1 / 25) } }

/-- What the constructor makes of them. -/
def demoMade : Synthetic.Made :=
  { cfg := ⟨2, 1, 2, 2, 7⟩, geo := ⟨(4, 4), (2, 2), (13, 13), (0, 0), (1, 1)⟩, outShape := (3, 3), pixels := true }

/-- Flow fields that differ outside rows 3 to 17. -/
def demoField (outside : Bool) : Field2 ℚ := ⟨20, 20, fun j i => if 3 ≤ j ∧ j ≤ 17 then (1, 0) else if outside then (j, i) else (0, 0)⟩

example : Synthetic.make id id demoArgs = .ok demoMade ∧ Extension demoArgs 0 ∧ (∀ b, ((demoField b).H, (demoField b).W) = demoArgs.flowShape) ∧
    (∀ j i, j < 20 → i < 20 → Matters demoArgs 0 j i → (demoField true).at_ j i = (demoField false).at_ j i) ∧
    (demoField true).at_ 2 5 ≠ (demoField false).at_ 2 5 ∧ (demoField true).at_ 18 5 ≠ (demoField false).at_ 18 5 ∧
    Matters demoArgs 0 3 3 ∧ Matters demoArgs 0 17 17 := by
  refine ⟨by decide +kernel, ⟨le_refl _, ?_⟩, fun _ => rfl, ?_, by decide +kernel, by decide +kernel, ?_, ?_⟩
  · rintro (h | h | h)
    · exact absurd h (by decide +kernel)
    · exact absurd h (by decide +kernel)
    · exact absurd rfl h
  · rintro j i _ _ ⟨⟨h1, h2⟩, _⟩
    have e1 : (demoArgs.imgOffset.1 - max 0 demoArgs.maxSpeedY * demoArgs.spec.dt - 0) * (demoArgs.flowShape.1 / demoArgs.flowFieldSize.1) - 2 = (2 : Nat) := by
      decide +kernel
    have e2 : (demoArgs.imgOffset.1 + demoArgs.spec.imageShape.1 / demoArgs.resolution - min 0 demoArgs.minSpeedY * demoArgs.spec.dt) *
        (demoArgs.flowShape.1 / demoArgs.flowFieldSize.1) + 1 = (18 : Nat) := by decide +kernel
    rw [e1, Nat.cast_lt] at h1
    rw [e2, Nat.cast_lt] at h2
    unfold demoField
    dsimp only
    rw [if_pos ⟨by omega, by omega⟩, if_pos ⟨by omega, by omega⟩]
  · unfold Matters Near
    decide +kernel
  · unfold Matters Near
    decide +kernel

/-- A single different velocity where it matters is reported. -/
example : (Sampler.run (Synthetic.always ⟨20, 20, fun j i => if (j, i) = (6, 6) then (1, 1) else (0, 0)⟩) (Synthetic.gen id id Synthetic.demoDraws demoArgs demoMade)
      demoMade.cfg [.next] (Sampler.init demoMade.cfg ())).map (fun q => q.1.map Synthetic.ends) ≠
    (Sampler.run (Synthetic.always ⟨20, 20, fun j i => if (j, i) = (10, 10) then (1, 1) else (0, 0)⟩) (Synthetic.gen id id Synthetic.demoDraws demoArgs demoMade)
      demoMade.cfg [.next] (Sampler.init demoMade.cfg ())).map (fun q => q.1.map Synthetic.ends) := by
  decide +kernel

end Verif.Unseen
