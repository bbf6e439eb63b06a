import Verif.Props.Synthetic
/-!
# The margin around the image when particles come and go (C134)

Particles are drawn as square patches on the region in which they are seeded, and a patch that does not fit into the region is shifted
inwards. The constructor enlarges the region for specifications that hide particles or vary their density. Exact arithmetic.
-/

namespace Verif.Synthetic
open Verif RenderSpec

/-- The specification hides particles or varies their density. -/
def Varies (p : Generate.Params ℚ) : Prop := 0 < p.pHide1 ∨ 0 < p.pHide2 ∨ p.densityRange.1 ≠ p.densityRange.2

/-- Half of the side of a patch, rounded down: the largest diameter allowed times one and a half, without the fraction. -/
def reach (p : Generate.Params ℚ) : Nat := ⌊3 * Generate.maxDiameter p / 2⌋.toNat

/-- What the sampler adds to pixel `(j, i)` of the region, by right: the light of the particles that are near it, at their true positions. -/
def trueLight (exp : ℚ → ℚ) (r : Nat) (ps : List (Render.Particle ℚ)) (j i : Nat) : ℚ :=
  (ps.map (fun p => if near r p.y j ∧ near r p.x i then light exp p.y p.x p.dy p.dx p.rho p.amp j i else 0)).sum

/-- The particles of the first image of pair `i`. -/
def particles1 (R : Generate.Rand ℚ) (a : Args) (m : Made) (k : KeyTerm) (n i : Nat) : List (Render.Particle ℚ) :=
  let p := { params a m with batchSize := n }
  let b := (m.geo.bounds.1.toNat, m.geo.bounds.2.toNat)
  (List.range (Generate.numParticles id b p)).map (Generate.particle1 id R p b k i)

/-- The particles of the second image of pair `i`. -/
def particles2 (R : Generate.Rand ℚ) (a : Args) (m : Made) (k : KeyTerm) (n i : Nat) (f : Adapter.Field2 ℚ) : List (Render.Particle ℚ) :=
  let p := { params a m with batchSize := n }
  let b := (m.geo.bounds.1.toNat, m.geo.bounds.2.toNat)
  (List.range (Generate.numParticles id b p)).map (Generate.particle2 id R p b f m.geo.res.2 m.geo.res.1 k i)

/-- No noise, no mask and no histogram: the images show the light itself, up to the largest intensity. -/
structure Plain (a : Args) : Prop where
  uniform : a.spec.noiseUniform = 0
  mean : a.spec.noiseMean = 0
  std : a.spec.noiseStd = 0
  mask : a.mask = none
  histogram : a.histogram = none

theorem foldl_max_ge (l : List ℚ) (x : ℚ) : x ≤ l.foldl max x := by
  induction l generalizing x with
  | nil => exact le_refl _
  | cons y l ih => exact (le_max_left x y).trans (ih _)

theorem maxDiameter_pos {p : Generate.Params ℚ} {o : ℚ × ℚ} (h : specOK p o = true) : 0 < Generate.maxDiameter p := by
  unfold specOK at h
  simp only [Bool.and_eq_true, decide_eq_true_eq, List.all_eq_true] at h
  obtain ⟨⟨⟨⟨⟨⟨⟨⟨⟨_, h1⟩, h2⟩, _⟩, _⟩, _⟩, _⟩, _⟩, _⟩, _⟩ := h
  unfold Generate.maxDiameter
  cases hd : p.diameterRanges with
  | nil => rw [hd] at h1; simp at h1
  | cons r l =>
    have := h2 r (by rw [hd]; exact List.mem_cons_self)
    refine lt_of_lt_of_le (lt_of_lt_of_le this.1 this.2) ?_
    simp only [List.map_cons, List.headD_cons, List.foldl_cons, max_self]
    exact foldl_max_ge _ _

/-- The whole patch fits between the upper (left) border of an enlarged region and the image. -/
theorem offset_ge {a : Args} {m : Made} (h : make id id a = .ok m) (hv : Varies a.spec) :
    (2 * (reach a.spec : Int) + 1 ≤ m.geo.imgOffset.1) ∧ (2 * (reach a.spec : Int) + 1 ≤ m.geo.imgOffset.2) := by
  obtain ⟨h1, _, _, _, _, _, _, h2, _⟩ := make_ok h
  have hd := maxDiameter_pos h1
  have hdt : 0 < a.spec.dt := by
    unfold specOK at h1
    simp only [Bool.and_eq_true, decide_eq_true_eq] at h1
    exact h1.2
  obtain ⟨_, _, _, _, b5, _, _, _, _, _, _, hg⟩ := Geometry.build_ok h2
  replace hg : m.geo = Geometry.store id id a.geometry (max 0 a.maxSpeedX) (max 0 a.maxSpeedY) (min 0 a.minSpeedX) (min 0 a.minSpeedY) := hg
  replace b5 : 0 < a.resolution := b5
  obtain ⟨s1, _, _⟩ := Geometry.store_eq (fl32 := id) (a := a.geometry) hdt.le b5 (le_max_left 0 a.maxSpeedX) (le_max_left 0 a.maxSpeedY)
    (min_le_left 0 a.minSpeedX) (min_le_left 0 a.minSpeedY)
  have hh : hidden a.spec = true := by
    unfold hidden
    rcases hv with h | h | h <;> simp [h]
  have hr : Geometry.patchRadius id (Generate.maxDiameter a.spec) = reach a.spec := by
    unfold Geometry.patchRadius reach trunc
    simp only [id]
    have : (0 : ℚ) ≤ 3 * Generate.maxDiameter a.spec / 2 := by linarith
    rw [if_neg (not_lt.2 this), Int.toNat_of_nonneg (Int.floor_nonneg.2 this)]
  have hs : Geometry.particleSize id (Generate.maxDiameter a.spec) a.resolution = (2 * (reach a.spec : Int) + 1 : Int) / a.resolution := by
    unfold Geometry.particleSize
    rw [hr]
    rfl
  have key : ∀ s, (s = max 0 a.maxSpeedX ∨ s = max 0 a.maxSpeedY) →
      2 * (reach a.spec : Int) + 1 ≤ ⌊Geometry.margin a.geometry (max 0 a.maxSpeedX) (max 0 a.maxSpeedY) s * a.resolution⌋ := by
    intro s hs'
    have hm : ((2 * (reach a.spec : Int) + 1 : Int) : ℚ) / a.resolution ≤
        Geometry.margin a.geometry (max 0 a.maxSpeedX) (max 0 a.maxSpeedY) s := by
      rw [← hs]
      unfold Geometry.margin Geometry.extra
      split
      · have := le_max_right 0 (Geometry.particleSize id (Generate.maxDiameter a.spec) a.resolution - s * a.spec.dt)
        show _ ≤ s * a.spec.dt + max 0 (id (Geometry.particleSize id (Generate.maxDiameter a.spec) a.resolution - id (s * a.spec.dt)))
        simp only [id]
        linarith
      · rename_i hx
        unfold Geometry.extended at hx
        rw [show a.geometry.hidden = true from hh] at hx
        simp only [id, Bool.true_and, Bool.or_eq_true, decide_eq_true_eq, not_or, not_lt] at hx
        rw [add_zero]
        rcases hs' with rfl | rfl
        · exact hx.1
        · exact hx.2
    rw [Int.le_floor]
    rw [div_le_iff₀ b5] at hm
    exact hm
  rw [hg, s1]
  exact ⟨key _ (.inr rfl), key _ (.inl rfl)⟩

/-- What is seen of the light, without noise. -/
theorem plain_noise {a : Args} (hp : Plain a) (u n v : ℚ) :
    Render.addNoise u n a.spec.noiseUniform a.spec.noiseMean a.spec.noiseStd v = min (max v 0) 255 := by
  unfold Render.addNoise
  rw [hp.uniform, hp.mean, hp.std]
  simp

/-- **C134** (partial). For every accepted sampler whose specification hides particles or varies their density, all random draws, every
flow field and every pixel of both images of every pair: the pixel shows the light of the particles that are near it at their true positions, and
of no others, however close it is to the upper and left border. At the lower and right border this needs the region to go on there: for as
far as particles can move up and to the left by the declared speeds. Missing from C134: other pixels near the lower
and right border (`C134_refuted`). -/
theorem C134_true_light_partial (a : Args) (m : Made) (h : make id id a = .ok m) (hv : Varies a.spec) (hp : Plain a)
    (R : Generate.Rand ℚ) (k : KeyTerm) (n i : Nat) (f : Adapter.Field2 ℚ) (y x : Nat)
    (hy : (y + 1 : ℚ) + (2 * reach a.spec + 1) ≤ a.spec.imageShape.1 + max 0 (-a.minSpeedY) * a.spec.dt * a.resolution)
    (hx : (x + 1 : ℚ) + (2 * reach a.spec + 1) ≤ a.spec.imageShape.2 + max 0 (-a.minSpeedX) * a.spec.dt * a.resolution) :
    let Y := y + m.geo.imgOffset.1.toNat
    let X := x + m.geo.imgOffset.2.toNat
    (render id id R a m k n i f).first.at_ y x = min (max (trueLight R.exp (reach a.spec) (particles1 R a m k n i) Y X) 0) 255 ∧
    (render id id R a m k n i f).second.at_ y x = min (max (trueLight R.exp (reach a.spec) (particles2 R a m k n i f) Y X) 0) 255 := by
  intro Y X
  obtain ⟨h1, _, _, _, _, _, _, h2, _⟩ := make_ok h
  have hdt : 0 < a.spec.dt := by
    unfold specOK at h1
    simp only [Bool.and_eq_true, decide_eq_true_eq] at h1
    exact h1.2
  obtain ⟨o1, o2⟩ := offset_ge h hv
  obtain ⟨_, _, _, _, b5, _, _, _, _, _, _, hg⟩ := Geometry.build_ok h2
  replace hg : m.geo = Geometry.store id id a.geometry (max 0 a.maxSpeedX) (max 0 a.maxSpeedY) (min 0 a.minSpeedX) (min 0 a.minSpeedY) := hg
  replace b5 : 0 < a.resolution := b5
  obtain ⟨s1, s2, _⟩ := Geometry.store_eq (fl32 := id) (a := a.geometry) hdt.le b5 (le_max_left 0 a.maxSpeedX) (le_max_left 0 a.maxSpeedY)
    (min_le_left 0 a.minSpeedX) (min_le_left 0 a.minSpeedY)
  have hmin : ∀ s : ℚ, -(min 0 s) = max 0 (-s) := by
    intro s
    rcases le_total 0 s with h | h
    · rw [min_eq_left h, max_eq_left (by linarith)]; ring
    · rw [min_eq_right h, max_eq_right (by linarith)]
  have key : ∀ (y N : Nat) (t M : ℚ) (o b : Int), o = ⌊M * a.resolution⌋ → b = ⌊(N : ℚ) + M * a.resolution - min 0 t * a.spec.dt * a.resolution⌋ →
      2 * (reach a.spec : Int) + 1 ≤ o →
      (y + 1 : ℚ) + (2 * reach a.spec + 1) ≤ N + max 0 (-t) * a.spec.dt * a.resolution →
      2 * reach a.spec < y + o.toNat ∧ y + o.toNat + 2 * reach a.spec + 1 < b.toNat := by
    intro y N t M o b ho hb hge hle
    refine ⟨by omega, ?_⟩
    have : (y : Int) + o + 2 * reach a.spec + 1 + 1 ≤ b := by
      rw [hb, Int.le_floor]
      push_cast
      have h3 := Int.floor_le (M * a.resolution)
      rw [← ho] at h3
      have h4 : min 0 t * a.spec.dt * a.resolution = -(max 0 (-t) * a.spec.dt * a.resolution) := by rw [← hmin]; ring
      linarith
    omega
  have e1 : m.geo.imgOffset.1 = ⌊Geometry.margin a.geometry (max 0 a.maxSpeedX) (max 0 a.maxSpeedY) (max 0 a.maxSpeedY) * a.resolution⌋ := by
    rw [hg, s1]; rfl
  have e2 : m.geo.imgOffset.2 = ⌊Geometry.margin a.geometry (max 0 a.maxSpeedX) (max 0 a.maxSpeedY) (max 0 a.maxSpeedX) * a.resolution⌋ := by
    rw [hg, s1]; rfl
  have ky := key y a.spec.imageShape.1 a.minSpeedY _ m.geo.imgOffset.1 m.geo.bounds.1 e1 (by rw [hg, s2]; rfl) o1 hy
  have kx := key x a.spec.imageShape.2 a.minSpeedX _ m.geo.imgOffset.2 m.geo.bounds.2 e2 (by rw [hg, s2]; rfl) o2 hx
  have fin : ∀ (nk : KeyTerm) (ps : List (Render.Particle ℚ)),
      (Generate.finish id R { params a m with batchSize := n } (m.geo.bounds.1.toNat, m.geo.bounds.2.toNat) (a.mask.map Prod.snd) (histogramOf a) nk ps).at_ y x =
        min (max (trueLight R.exp (reach a.spec) ps Y X) 0) 255 := by
    intro nk ps
    unfold histogramOf
    rw [hp.mask, hp.histogram]
    show Render.addNoise _ _ a.spec.noiseUniform a.spec.noiseMean a.spec.noiseStd
      (Render.render R.exp id (reach a.spec) m.geo.bounds.1.toNat m.geo.bounds.2.toNat ps Y X) = _
    rw [plain_noise hp, Render.C70_true_positions_partial R.exp ps ky kx]
    rfl
  refine ⟨fin _ _, ?_⟩
  show (Generate.finish _ _ _ _ _ _ _ _).at_ y x = _
  rw [fin]
  simp only [List.length_cons, List.length_nil, Nat.zero_add, Nat.mod_one, List.getD_cons_zero]
  rfl

/-- Some particles are hidden; the flow goes in all directions. -/
def demoHide : Args :=
  { demo with spec := { Generate.quietDemo with pHide1 := 1 / 100, diameterRanges := [(1 / 2, 1)], densityRange := (1 / 40, 1 / 30), imageShape := (4, 4) }
              imgOffset := (6, 6), ndevices := 1
              flowFieldSize := (20, 20), flowShape := (20, 20), maxSpeedX := 0, maxSpeedY := 0, minSpeedX := -3, minSpeedY := -3, mask := none }

example : ∃ m, make id id demoHide = .ok m ∧ Varies demoHide.spec ∧ Plain demoHide ∧ reach demoHide.spec = 1 ∧ m.geo.imgOffset = (3, 3) ∧
    m.geo.bounds = (10, 10) := by
  refine ⟨{ cfg := ⟨2, 1, 2, 2, 7⟩, geo := ⟨(3, 3), (3, 3), (10, 10), (0, 0), (1, 1)⟩, outShape := (2, 2), pixels := true }, by decide +kernel,
    .inl (by decide +kernel), ⟨rfl, rfl, rfl, rfl, rfl⟩, by decide +kernel, rfl, rfl⟩

/-- The arguments of the example, but the flow goes nowhere, and draws that put the only particle into the last row of the region. -/
def demoEdge : Args := { demoHide with minSpeedX := 0, minSpeedY := 0 }

def edgeMade : Made :=
  { cfg := ⟨2, 1, 2, 2, 7⟩, geo := ⟨(3, 3), (3, 3), (7, 7), (0, 0), (1, 1)⟩, outShape := (2, 2), pixels := true }

def edgeDraws : Generate.Rand ℚ := { Generate.demoRand with uniform := fun _ n => if n % 2 = 0 then 13 / 14 else 9 / 14 }

/-- **C134 is false at the lower border**: the region is not enlarged there. The only particle is in the last row of the region, two rows from
row 1 of the image, farther than a patch reaches, but this row shows it. -/
theorem C134_refuted : ∃ (a : Args) (m : Made) (R : Generate.Rand ℚ) (k : KeyTerm) (n i y x : Nat) (f : Adapter.Field2 ℚ),
    make id id a = .ok m ∧ Varies a.spec ∧ Plain a ∧ ExpLike R.exp ∧ Generate.Lawful R ∧ y < a.spec.imageShape.1 ∧ x < a.spec.imageShape.2 ∧
    (∀ p ∈ particles1 R a m k n i, ¬ near (reach a.spec) p.y (y + m.geo.imgOffset.1.toNat)) ∧
    0 < (render id id R a m k n i f).first.at_ y x :=
  ⟨demoEdge, edgeMade, edgeDraws, .seed 0, 2, 0, 1, 1, ⟨20, 20, fun _ _ => (0, 0)⟩, by decide +kernel, .inl (by decide +kernel), ⟨rfl, rfl, rfl, rfl, rfl⟩,
    Render.expLike_toy, fun _ n => by dsimp only [edgeDraws]; split <;> norm_num, by decide +kernel, by decide +kernel, by decide +kernel, by decide +kernel⟩

end Verif.Synthetic
