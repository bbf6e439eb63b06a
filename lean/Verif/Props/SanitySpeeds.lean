import Verif.Props.Sanity
import Verif.Props.SynthRange
import Verif.Props.Geometry
/-!
# C174: the speeds that the sanity script computes are those that the sampler needs
-/

namespace Verif.SanitySpeeds
open Verif Verif.Spec

/-- The velocity at every grid point of the flow field is a velocity in one of the files. -/
def FromFiles (read : Sanity.Reader) (files : List String) (f : Adapter.Field2 ℚ) : Prop :=
  0 < f.H ∧ 0 < f.W ∧ ∀ j i, j < f.H → i < f.W → ∃ p ∈ files, Velocity read p (.fin (f.at_ j i).1, .fin (f.at_ j i).2)

/-- The speeds of the configuration are those computed. -/
def Entered (s : Sanity.Speeds) (a : Synthetic.Args) : Prop :=
  s.minX = .fin a.minSpeedX ∧ s.maxX = .fin a.maxSpeedX ∧ s.minY = .fin a.minSpeedY ∧ s.maxY = .fin a.maxSpeedY

/-- Where a particle at `(y, x)` in the first image is in the second one. -/
def moved (fl32 : ℚ → ℚ) (R : Generate.Rand ℚ) (a : Synthetic.Args) (m : Synthetic.Made) (f : Adapter.Field2 ℚ) (y x : ℚ) : ℚ × ℚ :=
  Adapter.move (m.geo.bounds.1.toNat, m.geo.bounds.2.toNat) ((Synthetic.gen id fl32 R a m).adapt f).2 a.spec.dt m.geo.res.2 m.geo.res.1 y x

/-- The steps of the flow field's grid in the region, and the whole number that the code makes of it. -/
def steps (a : Synthetic.Args) (m : Synthetic.Made) : ℚ × ℚ :=
  ((m.geo.bounds.1 : ℚ) / a.resolution * m.geo.res.1, (m.geo.bounds.2 : ℚ) / a.resolution * m.geo.res.2)

/-- By how much displacements are stretched because of that: the number of steps, divided by the integer below, or by one. -/
def stretch (s : ℚ) : ℚ := s / max 1 ⌊s⌋

theorem bounds_pos {fl32 : ℚ → ℚ} {a : Synthetic.Args} {m : Synthetic.Made} (hm : Synthetic.make id fl32 a = .ok m) :
    0 < m.geo.bounds.1 ∧ 0 < m.geo.bounds.2 := by
  obtain ⟨h1, _, _, _, _, _, _, h8, _⟩ := Synthetic.make_ok hm
  obtain ⟨⟨w1, w2⟩, w3, w4⟩ := Geometry.C48_window_inside_partial fl32 a.geometry m.geo (Synthetic.specOK_iff h1).1 h8
  have him : 0 < a.spec.imageShape.1 ∧ 0 < a.spec.imageShape.2 := by
    simp only [Synthetic.specOK, Bool.and_eq_true, decide_eq_true_eq] at h1
    exact h1.1.1.1.1.1.1.1.1.1.1.1.1.1.1.2
  have e1 : a.geometry.imageShape = a.spec.imageShape := rfl
  rw [e1] at w2 w4
  omega

private theorem count_eq (b : Int) (hb : 0 < b) (r q : ℚ) : ((Adapter.count id b.toNat r q : Nat) : ℚ) = ((max 1 ⌊(b : ℚ) / r * q⌋ : Int) : ℚ) := by
  have hbc : ((b.toNat : Nat) : ℚ) = b := by exact_mod_cast Int.toNat_of_nonneg hb.le
  unfold Adapter.count
  simp only [id]
  rw [hbc]
  have : (((max 1 ⌊(b : ℚ) / r * q⌋.toNat : Nat) : Int)) = max 1 ⌊(b : ℚ) / r * q⌋ := by omega
  exact_mod_cast this

private theorem region_within {a : Adapter.Args ℚ} {lo hi : ℚ × ℚ} {f : Adapter.Field2 ℚ} (hf : Whole.FieldWithin lo hi f) (j i : Nat) :
    (lo.1 ≤ ((Adapter.processSingle id a f).2.at_ j i).1 ∧ ((Adapter.processSingle id a f).2.at_ j i).1 ≤ hi.1) ∧
    (lo.2 ≤ ((Adapter.processSingle id a f).2.at_ j i).2 ∧ ((Adapter.processSingle id a f).2.at_ j i).2 ≤ hi.2) := by
  obtain ⟨f1, f2, f3⟩ := hf
  have hH' : 0 < (Adapter.padEdge a.padding f).H := by show 0 < f.H + a.padding.1; omega
  have hW' : 0 < (Adapter.padEdge a.padding f).W := by show 0 < f.W + a.padding.2; omega
  have hpad : ∀ j i, j < (Adapter.padEdge a.padding f).H → i < (Adapter.padEdge a.padding f).W →
      (lo.1 ≤ ((Adapter.padEdge a.padding f).at_ j i).1 ∧ ((Adapter.padEdge a.padding f).at_ j i).1 ≤ hi.1) ∧
      (lo.2 ≤ ((Adapter.padEdge a.padding f).at_ j i).2 ∧ ((Adapter.padEdge a.padding f).at_ j i).2 ≤ hi.2) := by
    intro j i hj hi
    have hj' : j < f.H + a.padding.1 := hj
    have hi' : i < f.W + a.padding.2 := hi
    exact f3 (j - a.padding.1) (i - a.padding.2) (by omega) (by omega)
  unfold Adapter.processSingle Adapter.region Adapter.sample
  dsimp only
  exact ⟨Interp.C51_in_range _ hH' hW' (fun j i hj hi => (hpad j i hj hi).1) _ _, Interp.C51_in_range _ hH' hW' (fun j i hj hi => (hpad j i hj hi).2) _ _⟩

/-- A velocity, and the displacement that comes of it. -/
private theorem moved_eq {fl32 : ℚ → ℚ} {R : Generate.Rand ℚ} {a : Synthetic.Args} {m : Synthetic.Made} (hm : Synthetic.make id fl32 a = .ok m)
    {lo hi : ℚ × ℚ} {f : Adapter.Field2 ℚ} (hf : Whole.FieldWithin lo hi f) (y x : ℚ) :
    ∃ u v, (lo.1 ≤ u ∧ u ≤ hi.1) ∧ (lo.2 ≤ v ∧ v ≤ hi.2) ∧
      moved fl32 R a m f y x = (y + v * a.spec.dt * a.resolution * stretch (steps a m).1, x + u * a.spec.dt * a.resolution * stretch (steps a m).2) := by
  obtain ⟨b1, b2⟩ := bounds_pos hm
  obtain ⟨_, _, _, _, _, _, _, h8, _⟩ := Synthetic.make_ok hm
  have hr : 0 < a.resolution := Whole.resolution_pos h8
  have hw := fun j i => region_within (a := Adapter.ofGeo a.geometry m.geo m.outShape (m.cfg.batchSize / m.cfg.ndevices) m.pixels) hf j i
  have hH : ((Adapter.processSingle id (Adapter.ofGeo a.geometry m.geo m.outShape (m.cfg.batchSize / m.cfg.ndevices) m.pixels) f).2.H : ℚ) =
      ((max 1 ⌊(m.geo.bounds.1 : ℚ) / a.resolution * m.geo.res.1⌋ : Int) : ℚ) := count_eq m.geo.bounds.1 b1 a.resolution m.geo.res.1
  have hW : ((Adapter.processSingle id (Adapter.ofGeo a.geometry m.geo m.outShape (m.cfg.batchSize / m.cfg.ndevices) m.pixels) f).2.W : ℚ) =
      ((max 1 ⌊(m.geo.bounds.2 : ℚ) / a.resolution * m.geo.res.2⌋ : Int) : ℚ) := count_eq m.geo.bounds.2 b2 a.resolution m.geo.res.2
  unfold moved
  show ∃ u v, _ ∧ _ ∧ Adapter.move _ (Adapter.processSingle id (Adapter.ofGeo a.geometry m.geo m.outShape (m.cfg.batchSize / m.cfg.ndevices) m.pixels) f).2 _ _ _ y x = _
  generalize (Adapter.processSingle id (Adapter.ofGeo a.geometry m.geo m.outShape (m.cfg.batchSize / m.cfg.ndevices) m.pixels) f).2 = F at hw hH hW ⊢
  have hn1 : (0 : ℚ) < ((max 1 ⌊(m.geo.bounds.1 : ℚ) / a.resolution * m.geo.res.1⌋ : Int) : ℚ) := by
    exact_mod_cast lt_of_lt_of_le one_pos (le_max_left 1 _)
  have hn2 : (0 : ℚ) < ((max 1 ⌊(m.geo.bounds.2 : ℚ) / a.resolution * m.geo.res.2⌋ : Int) : ℚ) := by
    exact_mod_cast lt_of_lt_of_le one_pos (le_max_left 1 _)
  have hF1 : 0 < F.H := by rw [← hH] at hn1; exact_mod_cast hn1
  have hF2 : 0 < F.W := by rw [← hW] at hn2; exact_mod_cast hn2
  rw [Adapter.move_eq _ _ _ _ _ _ _ (show 0 < m.geo.bounds.1.toNat by omega) (show 0 < m.geo.bounds.2.toNat by omega) hF1 hF2]
  have hb1 : ((m.geo.bounds.1.toNat : Nat) : ℚ) = m.geo.bounds.1 := by exact_mod_cast Int.toNat_of_nonneg b1.le
  have hb2 : ((m.geo.bounds.2.toNat : Nat) : ℚ) = m.geo.bounds.2 := by exact_mod_cast Int.toNat_of_nonneg b2.le
  refine ⟨_, _, Interp.C51_in_range (fun j i => (F.at_ j i).1) hF1 hF2 (fun j i _ _ => (hw j i).1)
      (x * ((F.W : ℚ) / (m.geo.bounds.2.toNat : Nat))) (y * ((F.H : ℚ) / (m.geo.bounds.1.toNat : Nat))),
    Interp.C51_in_range (fun j i => (F.at_ j i).2) hF1 hF2 (fun j i _ _ => (hw j i).2)
      (x * ((F.W : ℚ) / (m.geo.bounds.2.toNat : Nat))) (y * ((F.H : ℚ) / (m.geo.bounds.1.toNat : Nat))), ?_⟩
  refine Prod.ext ?_ ?_
  · simp only [hb1, hb2]
    refine congrArg (y + ·) ?_
    generalize Interp.bilinear (K := ℚ) _ _ _ _ _ = w
    rw [show w * a.spec.dt * a.resolution * stretch (steps a m).1 = w * (a.spec.dt * a.resolution * stretch (steps a m).1) by ring]
    refine congrArg _ ?_
    simp only [stretch, steps]
    rw [hH]
    field_simp
  · simp only [hb1, hb2]
    refine congrArg (x + ·) ?_
    generalize Interp.bilinear (K := ℚ) _ _ _ _ _ = w
    rw [show w * a.spec.dt * a.resolution * stretch (steps a m).2 = w * (a.spec.dt * a.resolution * stretch (steps a m).2) by ring]
    refine congrArg _ ?_
    simp only [stretch, steps]
    rw [hW]
    field_simp

private theorem within_of {read : Sanity.Reader} (hr : ReadsArrays read) {files : List String} (hne : files ≠ [])
    (hn : ∀ f ∈ files, ∀ v, Velocity read f v → v.1 ≠ .nan ∧ v.2 ≠ .nan) {s : Sanity.Speeds} (hs : Sanity.speeds read files = .ok s)
    {a : Synthetic.Args} (he : Entered s a) {f : Adapter.Field2 ℚ} (hf : FromFiles read files f) :
    Whole.FieldWithin (a.minSpeedX, a.minSpeedY) (a.maxSpeedX, a.maxSpeedY) f := by
  have hB := Sanity.C67_bounds_partial read hr files hne hn s hs
  obtain ⟨e1, e2, e3, e4⟩ := he
  refine ⟨hf.1, hf.2.1, fun j i hj hi => ?_⟩
  obtain ⟨p, hp, hv⟩ := hf.2.2 j i hj hi
  have := hB.bounds _ ⟨p, hp, hv⟩
  rw [e1, e2, e3, e4] at this
  simp only [Num.le, decide_eq_true_eq] at this
  exact ⟨⟨this.1, this.2.1⟩, this.2.2.1, this.2.2.2⟩

/-- **C174** (displacements). Let the speeds in the configuration be those that the script computes from the files, none of
which has a NaN. Then whatever the position, the displacement of a particle between the two images is the stretch times a
displacement within those that the sampler expects. -/
theorem C174_displacements (fl32 : ℚ → ℚ) (R : Generate.Rand ℚ) (read : Sanity.Reader) (hr : ReadsArrays read) (files : List String) (hne : files ≠ [])
    (hn : ∀ f ∈ files, ∀ v, Velocity read f v → v.1 ≠ .nan ∧ v.2 ≠ .nan) (s : Sanity.Speeds) (hs : Sanity.speeds read files = .ok s)
    (a : Synthetic.Args) (m : Synthetic.Made) (hm : Synthetic.make id fl32 a = .ok m) (he : Entered s a)
    (f : Adapter.Field2 ℚ) (hf : FromFiles read files f) (y x : ℚ) :
    (∃ δ, a.minSpeedY * a.spec.dt * a.resolution ≤ δ ∧ δ ≤ a.maxSpeedY * a.spec.dt * a.resolution ∧
      (moved fl32 R a m f y x).1 = y + δ * stretch (steps a m).1) ∧
    (∃ δ, a.minSpeedX * a.spec.dt * a.resolution ≤ δ ∧ δ ≤ a.maxSpeedX * a.spec.dt * a.resolution ∧
      (moved fl32 R a m f y x).2 = x + δ * stretch (steps a m).2) := by
  obtain ⟨h1, _, _, _, _, _, _, h8, _⟩ := Synthetic.make_ok hm
  have hdt : 0 < a.spec.dt := (Synthetic.specOK_iff h1).1
  have hres : 0 < a.resolution := Whole.resolution_pos h8
  obtain ⟨u, v, ⟨u1, u2⟩, ⟨v1, v2⟩, e⟩ := moved_eq (R := R) hm (within_of hr hne hn hs he hf) y x
  rw [e]
  exact ⟨⟨v * a.spec.dt * a.resolution, by gcongr, by gcongr, rfl⟩, ⟨u * a.spec.dt * a.resolution, by gcongr, by gcongr, rfl⟩⟩

/-- The stretch is at least one and less than `1 + 1/n`, with `n` the whole steps in the region, if there is at least one step; and it
is one iff the steps fit exactly. -/
theorem C174_stretch (s : ℚ) (hs : 1 ≤ s) : 1 ≤ stretch s ∧ stretch s < 1 + 1 / ⌊s⌋ ∧ (stretch s = 1 ↔ ∃ n : Int, s = n) := by
  have h1 : (1 : Int) ≤ ⌊s⌋ := Int.le_floor.mpr (by exact_mod_cast hs)
  have hp : (0 : ℚ) < ⌊s⌋ := by exact_mod_cast lt_of_lt_of_le one_pos h1
  have e : stretch s = s / ⌊s⌋ := by
    unfold stretch
    rw [max_eq_right h1]
  rw [e]
  refine ⟨?_, ?_, ?_⟩
  · rw [le_div_iff₀ hp, one_mul]
    exact Int.floor_le s
  · rw [div_lt_iff₀ hp, add_mul, one_mul, one_div, inv_mul_cancel₀ hp.ne']
    exact Int.lt_floor_add_one s
  · rw [div_eq_one_iff_eq hp.ne']
    constructor
    · exact fun h => ⟨_, h⟩
    · rintro ⟨n, rfl⟩
      simp

/-- The displacement that the sampler reckons with, along either direction. -/
def reach (lo hi dt resolution : ℚ) : ℚ := max |lo| |hi| * dt * resolution

private theorem slack {lo hi dt r δ φ : ℚ} (hdt : 0 < dt) (hr : 0 < r) (h1 : lo * dt * r ≤ δ) (h2 : δ ≤ hi * dt * r) :
    |δ * φ - δ| ≤ |φ - 1| * reach lo hi dt r := by
  have : δ * φ - δ = (φ - 1) * δ := by ring
  rw [this, abs_mul]
  refine mul_le_mul_of_nonneg_left ?_ (abs_nonneg _)
  unfold reach
  have hpos : 0 < dt * r := mul_pos hdt hr
  rw [mul_assoc] at h1 h2 ⊢
  refine abs_le.mpr ⟨?_, ?_⟩
  · refine le_trans ?_ h1
    rw [← neg_mul]
    refine mul_le_mul_of_nonneg_right ?_ hpos.le
    have := neg_abs_le lo
    have := le_max_left |lo| |hi|
    linarith
  · refine le_trans h2 ?_
    refine mul_le_mul_of_nonneg_right ?_ hpos.le
    exact (le_abs_self hi).trans (le_max_right _ _)

/-- **C174** (partial). Let the speeds in the configuration be those that the script computes from the files, none of which has a
NaN. Then a particle seen in the first or in the second image starts less than one pixel outside the region in which particles are
seeded, up to what the stretch adds to the largest displacement. Missing: the part beyond the region (`C174_refuted`). -/
theorem C174_origin_partial (fl32 : ℚ → ℚ) (R : Generate.Rand ℚ) (read : Sanity.Reader) (hr : ReadsArrays read) (files : List String) (hne : files ≠ [])
    (hn : ∀ f ∈ files, ∀ v, Velocity read f v → v.1 ≠ .nan ∧ v.2 ≠ .nan) (s : Sanity.Speeds) (hs : Sanity.speeds read files = .ok s)
    (a : Synthetic.Args) (m : Synthetic.Made) (hm : Synthetic.make id fl32 a = .ok m) (he : Entered s a)
    (f : Adapter.Field2 ℚ) (hf : FromFiles read files f) (y x : ℚ) :
    (Geometry.InWindow m.geo.imgOffset.1 a.spec.imageShape.1 y ∨ Geometry.InWindow m.geo.imgOffset.1 a.spec.imageShape.1 (moved fl32 R a m f y x).1 →
      -1 - |stretch (steps a m).1 - 1| * reach a.minSpeedY a.maxSpeedY a.spec.dt a.resolution < y ∧
      y < m.geo.bounds.1 + 1 + |stretch (steps a m).1 - 1| * reach a.minSpeedY a.maxSpeedY a.spec.dt a.resolution) ∧
    (Geometry.InWindow m.geo.imgOffset.2 a.spec.imageShape.2 x ∨ Geometry.InWindow m.geo.imgOffset.2 a.spec.imageShape.2 (moved fl32 R a m f y x).2 →
      -1 - |stretch (steps a m).2 - 1| * reach a.minSpeedX a.maxSpeedX a.spec.dt a.resolution < x ∧
      x < m.geo.bounds.2 + 1 + |stretch (steps a m).2 - 1| * reach a.minSpeedX a.maxSpeedX a.spec.dt a.resolution) := by
  obtain ⟨⟨δ, d1, d2, d3⟩, ⟨ε, e1, e2, e3⟩⟩ := C174_displacements fl32 R read hr files hne hn s hs a m hm he f hf y x
  obtain ⟨h1, _, _, _, _, _, _, h8, _⟩ := Synthetic.make_ok hm
  have hdt : 0 < a.spec.dt := (Synthetic.specOK_iff h1).1
  have hres : 0 < a.resolution := Whole.resolution_pos h8
  have s1 := abs_le.mp (slack (φ := stretch (steps a m).1) hdt hres d1 d2)
  have s2 := abs_le.mp (slack (φ := stretch (steps a m).2) hdt hres e1 e2)
  have n1 : 0 ≤ |stretch (steps a m).1 - 1| * reach a.minSpeedY a.maxSpeedY a.spec.dt a.resolution := by linarith [s1.1, s1.2]
  have n2 : 0 ≤ |stretch (steps a m).2 - 1| * reach a.minSpeedX a.maxSpeedX a.spec.dt a.resolution := by linarith [s2.1, s2.2]
  refine ⟨fun hw => ?_, fun hw => ?_⟩
  · rcases hw with hw | hw
    · obtain ⟨⟨k1, k2⟩, _⟩ := (Geometry.C49_origin_inside_partial fl32 a.geometry m.geo hdt h8 y δ).1 d1 d2 (.inl hw)
      constructor <;> linarith
    · rw [d3] at hw
      obtain ⟨⟨k1, k2⟩, _⟩ := (Geometry.C49_origin_inside_partial fl32 a.geometry m.geo hdt h8 (y + (δ * stretch (steps a m).1 - δ)) δ).1 d1 d2
        (.inr (by rw [show y + (δ * stretch (steps a m).1 - δ) + δ = y + δ * stretch (steps a m).1 by ring]; exact hw))
      constructor <;> linarith
  · rcases hw with hw | hw
    · obtain ⟨⟨k1, k2⟩, _⟩ := (Geometry.C49_origin_inside_partial fl32 a.geometry m.geo hdt h8 x ε).2 e1 e2 (.inl hw)
      constructor <;> linarith
    · rw [e3] at hw
      obtain ⟨⟨k1, k2⟩, _⟩ := (Geometry.C49_origin_inside_partial fl32 a.geometry m.geo hdt h8 (x + (ε * stretch (steps a m).2 - ε)) ε).2 e1 e2
        (.inr (by rw [show x + (ε * stretch (steps a m).2 - ε) + ε = x + ε * stretch (steps a m).2 by ring]; exact hw))
      constructor <;> linarith

/-- **C174**, where the grid of the flow fields fits the region: a whole number of steps along either axis, and displacements of whole
pixels at the speeds computed. Then what is seen in either image starts in the region. -/
theorem C174_origin_fits (fl32 : ℚ → ℚ) (R : Generate.Rand ℚ) (read : Sanity.Reader) (hr : ReadsArrays read) (files : List String) (hne : files ≠ [])
    (hn : ∀ f ∈ files, ∀ v, Velocity read f v → v.1 ≠ .nan ∧ v.2 ≠ .nan) (s : Sanity.Speeds) (hs : Sanity.speeds read files = .ok s)
    (a : Synthetic.Args) (m : Synthetic.Made) (hm : Synthetic.make id fl32 a = .ok m) (he : Entered s a)
    (hsteps : (∃ k : Nat, 0 < k ∧ (steps a m).1 = k) ∧ ∃ k : Nat, 0 < k ∧ (steps a m).2 = k)
    (hpix : ∀ v ∈ [max 0 a.maxSpeedY, min 0 a.minSpeedY, max 0 a.maxSpeedX, min 0 a.minSpeedX], ∃ k : Int, v * a.spec.dt * a.resolution = k)
    (f : Adapter.Field2 ℚ) (hf : FromFiles read files f) (y x : ℚ) :
    (Geometry.InWindow m.geo.imgOffset.1 a.spec.imageShape.1 y ∨ Geometry.InWindow m.geo.imgOffset.1 a.spec.imageShape.1 (moved fl32 R a m f y x).1 →
      0 ≤ y ∧ y ≤ m.geo.bounds.1) ∧
    (Geometry.InWindow m.geo.imgOffset.2 a.spec.imageShape.2 x ∨ Geometry.InWindow m.geo.imgOffset.2 a.spec.imageShape.2 (moved fl32 R a m f y x).2 →
      0 ≤ x ∧ x ≤ m.geo.bounds.2) := by
  obtain ⟨⟨δ, d1, d2, d3⟩, ⟨ε, e1, e2, e3⟩⟩ := C174_displacements fl32 R read hr files hne hn s hs a m hm he f hf y x
  obtain ⟨h1, _, _, _, _, _, _, h8, _⟩ := Synthetic.make_ok hm
  have hdt : 0 < a.spec.dt := (Synthetic.specOK_iff h1).1
  have one : ∀ q : ℚ, (∃ k : Nat, 0 < k ∧ q = k) → stretch q = 1 := by
    rintro q ⟨k, hk, rfl⟩
    have hk1 : (1 : ℚ) ≤ k := by exact_mod_cast hk
    exact (C174_stretch _ hk1).2.2.mpr ⟨k, by simp⟩
  rw [one _ hsteps.1, mul_one] at d3
  rw [one _ hsteps.2, mul_one] at e3
  rw [d3, e3]
  exact ⟨fun hw => ((Geometry.C49_origin_inside_partial fl32 a.geometry m.geo hdt h8 y δ).1 d1 d2 hw).2 (hpix (max 0 a.maxSpeedY) (by simp)) (hpix (min 0 a.minSpeedY) (by simp)),
    fun hw => ((Geometry.C49_origin_inside_partial fl32 a.geometry m.geo hdt h8 x ε).2 e1 e2 hw).2 (hpix (max 0 a.maxSpeedX) (by simp)) (hpix (min 0 a.minSpeedX) (by simp))⟩

/-- Files with one dataset of 8 x 8 velocities `(8, 8)`. -/
def demoRead : Sanity.Reader := fun _ => .ok [.data [8, 8, 2] (List.replicate 64 [.fin 8, .fin 8])]

/-- A flow field of 64 x 64 units on `n` x `n` points, with the speeds of these files. -/
def demoArgs (n : Nat) : Synthetic.Args :=
  { Synthetic.demoShift with
    imgOffset := (20, 20), flowFieldSize := (64, 64), flowShape := (n, n), maxSpeedX := 8, maxSpeedY := 8, minSpeedX := 8, minSpeedY := 8 }

def demoMade (res : ℚ) : Synthetic.Made :=
  { cfg := ⟨2, 1, 2, 2, 7⟩, geo := ⟨(12, 12), (8, 8), (13, 13), (0, 0), (res, res)⟩, outShape := (3, 3), pixels := true }

theorem demo_velocity {p : String} {v : Num × Num} : Velocity demoRead p v ↔ v = (.fin 8, .fin 8) := by
  constructor
  · rintro ⟨shape, points, rest, h, q, hq, h0, h1⟩
    simp only [demoRead, Except.ok.injEq, List.cons.injEq, Sanity.Content.data.injEq] at h
    obtain ⟨⟨_, rfl⟩, _⟩ := h
    obtain rfl := List.eq_of_mem_replicate hq
    simp only [List.getElem?_cons_zero, List.getElem?_cons_succ, Option.some.injEq] at h0 h1
    exact Prod.ext h0.symm h1.symm
  · rintro rfl
    exact ⟨[8, 8, 2], _, [], rfl, [.fin 8, .fin 8], List.mem_replicate.mpr ⟨by decide, rfl⟩, rfl, rfl⟩

theorem demo_reads : ReadsArrays demoRead := by
  intro file shape points rest h q hq
  simp only [demoRead, Except.ok.injEq, List.cons.injEq, Sanity.Content.data.injEq] at h
  obtain ⟨⟨rfl, rfl⟩, _⟩ := h
  obtain rfl := List.eq_of_mem_replicate hq
  rfl

/-- The hypotheses of `C174_displacements`, `C174_origin_partial` and `C174_origin_fits` are met: the file has no NaN, its speeds are computed
and entered, the configuration is accepted, and the region of 13 pixels has 13 steps. -/
example : ReadsArrays demoRead ∧ (∀ f ∈ ["a.h5"], ∀ v, Velocity demoRead f v → v.1 ≠ .nan ∧ v.2 ≠ .nan) ∧
    Sanity.speeds demoRead ["a.h5"] = .ok ⟨.fin 8, .fin 8, .fin 8, .fin 8⟩ ∧ Entered ⟨.fin 8, .fin 8, .fin 8, .fin 8⟩ (demoArgs 64) ∧
    Synthetic.make id id (demoArgs 64) = .ok (demoMade 1) ∧ FromFiles demoRead ["a.h5"] ⟨64, 64, fun _ _ => (8, 8)⟩ ∧
    steps (demoArgs 64) (demoMade 1) = (13, 13) ∧ max 0 (demoArgs 64).maxSpeedY * (demoArgs 64).spec.dt * (demoArgs 64).resolution = (8 : Int) := by
  refine ⟨demo_reads, ?_, by decide +kernel, ⟨rfl, rfl, rfl, rfl⟩, by decide +kernel, ⟨by decide, by decide, fun j i _ _ => ⟨"a.h5", by simp, demo_velocity.mpr rfl⟩⟩,
    by decide +kernel, by decide +kernel⟩
  intro f _ v hv
  rw [demo_velocity] at hv
  subst hv
  exact ⟨by simp, by simp⟩

/-- **C174 is false**: with one velocity per eight pixels the region of 13 pixels is taken for one step, so that all displacements are stretched by
13/8: a particle that would start four pixels outside the region is seen in the second image. -/
theorem C174_refuted : ∃ (read : Sanity.Reader) (s : Sanity.Speeds) (a : Synthetic.Args) (m : Synthetic.Made) (f : Adapter.Field2 ℚ) (y x : ℚ),
    ReadsArrays read ∧ (∀ v, Velocity read "a.h5" v → v.1 ≠ .nan ∧ v.2 ≠ .nan) ∧ Sanity.speeds read ["a.h5"] = .ok s ∧
    Synthetic.make id id a = .ok m ∧ Entered s a ∧ FromFiles read ["a.h5"] f ∧
    Geometry.InWindow m.geo.imgOffset.1 a.spec.imageShape.1 (moved id Synthetic.demoDraws a m f y x).1 ∧
    Geometry.InWindow m.geo.imgOffset.2 a.spec.imageShape.2 (moved id Synthetic.demoDraws a m f y x).2 ∧ y = -4 ∧ x = -4 := by
  have hmv : moved id Synthetic.demoDraws (demoArgs 8) (demoMade (1 / 8)) ⟨8, 8, fun _ _ => (8, 8)⟩ (-4) (-4) = (9, 9) := by decide +kernel
  refine ⟨demoRead, ⟨.fin 8, .fin 8, .fin 8, .fin 8⟩, demoArgs 8, demoMade (1 / 8), ⟨8, 8, fun _ _ => (8, 8)⟩, -4, -4, demo_reads, ?_, by decide +kernel,
    by decide +kernel, ⟨rfl, rfl, rfl, rfl⟩, ⟨by decide, by decide, fun j i _ _ => ⟨"a.h5", by simp, demo_velocity.mpr rfl⟩⟩, ?_, ?_, rfl, rfl⟩
  · intro v hv
    rw [demo_velocity] at hv
    subst hv
    exact ⟨by simp, by simp⟩
  · rw [hmv]
    constructor <;> decide +kernel
  · rw [hmv]
    constructor <;> decide +kernel

/-- Three and three quarters steps: the stretch is 5/4. -/
example : stretch (15 / 4) = 5 / 4 := by decide +kernel

end Verif.SanitySpeeds
