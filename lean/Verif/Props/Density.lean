import Verif.Props.Noise
/-!
# More particles, fewer particles (C155, and C144 for samplers)
-/

namespace Verif.Generate
open Verif Render
variable {K : Type*} [Field K] [LinearOrder K] [IsStrictOrderedRing K] [FloorRing K]

/-- A higher lower bound makes the drawn density higher. -/
theorem density_mono (fl32 : K → K) (hfl : Monotone fl32) (R : Rand K) (hR : Lawful R) (p : Params K) {lo : K} (h : p.densityRange.1 ≤ lo) (key : KeyTerm) (i : Nat) :
    density fl32 R p key i ≤ density fl32 R { p with densityRange := (lo, p.densityRange.2) } key i :=
  clip_mono (between_mono (hR _ _).1 (hR _ _).2 (hfl h) le_rfl) le_rfl le_rfl

theorem mixed_mono (fl32 : K → K) (hfl : Monotone fl32) (bounds : Nat × Nat) {d d' : K} (h : d ≤ d') (k : Nat) (hk : mixed fl32 bounds d k = true) : mixed fl32 bounds d' k = true := by
  unfold mixed currentNum at *
  simp only [decide_eq_true_eq] at *
  exact hk.trans_le (Int.floor_le_floor (hfl (mul_le_mul_of_nonneg_left h (Nat.cast_nonneg _))))

/-- More particles take part. -/
theorem particle_denser (fl32 : K → K) (hfl : Monotone fl32) (R : Rand K) (hR : Lawful R) (p : Params K) {lo : K} (h : p.densityRange.1 ≤ lo) (hi : Ranges p.intensityRanges)
    (hi0 : ∀ q ∈ p.intensityRanges, 0 ≤ q.1) (bounds : Nat × Nat) (flow : Adapter.Field2 K) (resX resY : K) (key : KeyTerm) (i k : Nat) :
    let p' := { p with densityRange := (lo, p.densityRange.2) }
    (particle1 fl32 R p bounds key i k = { particle1 fl32 R p' bounds key i k with amp := (particle1 fl32 R p bounds key i k).amp } ∧
      (particle1 fl32 R p bounds key i k).amp ≤ (particle1 fl32 R p' bounds key i k).amp) ∧
    (particle2 fl32 R p bounds flow resX resY key i k =
        { particle2 fl32 R p' bounds flow resX resY key i k with amp := (particle2 fl32 R p bounds flow resX resY key i k).amp } ∧
      (particle2 fl32 R p bounds flow resX resY key i k).amp ≤ (particle2 fl32 R p' bounds flow resX resY key i k).amp) := by
  intro p'
  have hd := density_mono fl32 hfl R hR p h key i
  have key0 (c : Bool) {v : K} (hv : 0 ≤ v) :
      v * (if (c && mixed fl32 bounds (density fl32 R p key i) k) = true then 1 else 0) ≤ v * (if (c && mixed fl32 bounds (density fl32 R p' key i) k) = true then 1 else 0) := by
    by_cases hb : (c && mixed fl32 bounds (density fl32 R p key i) k) = true
    · obtain ⟨b1, b2⟩ := Bool.and_eq_true_iff.mp hb
      rw [if_pos hb, if_pos (Bool.and_eq_true_iff.mpr ⟨b1, mixed_mono fl32 hfl bounds hd k b2⟩)]
    · rw [if_neg hb, mul_zero]
      split
      · simpa using hv
      · simp
  obtain ⟨hne, hord⟩ := hi
  have hm := row_mem hne (rangeIdx R p key i).2.1
  have lo := hi0 _ hm
  refine ⟨⟨rfl, ?_⟩, rfl, ?_⟩
  · exact key0 _ (lo.trans (le_max_left _ _))
  · exact key0 _ (lo.trans (clip_mem (hord _ hm)).1)

end Verif.Generate

namespace Verif.Synthetic
open Verif Compare

/-- The arguments with another lower bound of the seeding density. -/
def withDensity (lo : ℚ) (a : Args) : Args := { a with spec := { a.spec with densityRange := (lo, a.spec.densityRange.2) } }

/-- What the constructor checks of the brightness. -/
theorem brightness_ok {fl fl32 : ℚ → ℚ} {a : Args} {m : Made} (hm : make fl fl32 a = .ok m) :
    Generate.Ranges a.spec.intensityRanges ∧ ∀ q ∈ a.spec.intensityRanges, 0 ≤ q.1 := by
  have hs := (make_ok hm).1
  unfold specOK at hs
  simp only [Bool.and_eq_true, decide_eq_true_eq, List.all_eq_true] at hs
  obtain ⟨⟨⟨⟨⟨⟨⟨_, h2⟩, h3⟩, _⟩, _⟩, _⟩, _⟩, _⟩ := hs
  exact ⟨⟨List.length_pos_iff.1 h2, fun q hq => (h3 q hq).2⟩, fun q hq => (h3 q hq).1.le⟩

/-- **C155.** With a higher lower bound of `seeding_density_range` and the same upper bound, the sampler is accepted, no reported density is lower, no pixel of any image becomes darker, and
nothing else changes: over every history of calls on every scheduler, for all draws of the distributions and every monotone rounding, any noise, with a mask or without, without histogram;
provided particles may be hidden or the density varies with the new bounds as well (otherwise the region of the particles may be another one). -/
theorem C155_denser (fl fl32 : ℚ → ℚ) (hfl : Monotone fl32) (R : Generate.Rand ℚ) (hR : Generate.Lawful R) (he : ∀ t, 0 < R.exp t) (a : Args) (m : Made) (hm : make fl fl32 a = .ok m)
    (hh : a.histogram = none) (hmask : ∀ q, a.mask = some q → ∀ j i, q.2 j i = 0 ∨ q.2 j i = 1) (lo : ℚ) (h1 : a.spec.densityRange.1 ≤ lo) (h2 : lo ≤ a.spec.densityRange.2)
    (hv : 0 < a.spec.pHide1 ∨ 0 < a.spec.pHide2 ∨ lo < a.spec.densityRange.2) :
    make fl fl32 (withDensity lo a) = .ok m ∧ AlwaysAlike (Pixels (· ≤ ·) (· ≤ ·) (· ≤ ·) Eq) fl fl32 R a (withDensity lo a) m := by
  have hs := (make_ok hm).1
  have hok : specOK (withDensity lo a).spec (withDensity lo a).imgOffset = true := by
    unfold specOK at hs ⊢
    simp only [Bool.and_eq_true, decide_eq_true_eq] at hs ⊢
    obtain ⟨⟨⟨⟨⟨⟨⟨⟨⟨⟨⟨s1, s2, s3⟩, s4⟩, s5⟩, s6⟩, s7⟩, s8⟩, s9⟩, s10⟩, s11⟩, s12⟩, s13⟩ := hs
    exact ⟨⟨⟨⟨⟨⟨⟨⟨⟨⟨⟨s1, s2.trans h1, s3⟩, h2⟩, s5⟩, s6⟩, s7⟩, s8⟩, s9⟩, s10⟩, s11⟩, s12⟩, s13⟩
  have hg : (withDensity lo a).geometry = a.geometry := by
    have e : hidden (withDensity lo a).spec = hidden a.spec := by
      unfold hidden
      rcases hv with h | h | h
      · show (decide (0 < a.spec.pHide1) || _ || _) = _
        simp [h]
      · show (_ || decide (0 < a.spec.pHide2) || _) = _
        simp [h]
      · show (_ || _ || decide (lo ≠ a.spec.densityRange.2)) = _
        simp [h.ne, (h1.trans_lt h).ne]
    unfold Args.geometry
    rw [e]
    rfl
  have hmake : make fl fl32 (withDensity lo a) = .ok m := by
    rw [← hm]
    unfold make
    rw [hok, hs, hg]
    rfl
  obtain ⟨hi, hi0⟩ := brightness_ok hm
  refine ⟨hmake, alwaysAlike hg (fun k n i f => render_spec (a' := withDensity lo a) hh hh rfl ⟨⟨rfl, rfl, rfl⟩, rfl, rfl, rfl⟩ rfl rfl rfl (fun n k i => ?_) (fun _ => rfl)
    (T₁ := Brighter) (T₂ := Brighter) (fun n bounds key i k => ?_) (fun n bounds flow resX resY key i k => ?_) (pixel_brighter he hmask) (pixel_brighter he hmask) k n i f)⟩
  · exact Generate.density_mono fl32 hfl R hR { params a m with batchSize := n } h1 k i
  · exact (Generate.particle_denser fl32 hfl R hR { params a m with batchSize := n } h1 hi hi0 bounds ⟨0, 0, fun _ _ => (0, 0)⟩ 0 0 key i k).1
  · exact (Generate.particle_denser fl32 hfl R hR { params a m with batchSize := n } h1 hi hi0 bounds flow resX resY key i k).2

/-- The arguments with other probabilities of hiding. -/
def withHiding (p1 p2 : ℚ) (a : Args) : Args := { a with spec := { a.spec with pHide1 := p1, pHide2 := p2 } }

/-- Particles of the same shape at the same place, the second at most as bright. -/
def Darker (q q' : Render.Particle ℚ) : Prop := Brighter q' q

theorem pixel_darker {fl32 : ℚ → ℚ} {R : Generate.Rand ℚ} (he : ∀ t, 0 < R.exp t) {a : Args} (hmask : ∀ q, a.mask = some q → ∀ j i, q.2 j i = 0 ∨ q.2 j i = 1)
    (u n : ℚ) (r H W y x j i : Nat) (ps ps' : List (Render.Particle ℚ)) (hps : List.Forall₂ Darker ps ps') : let w : ℚ := match a.mask with | none => 1 | some m => m.2 j i
    Render.addNoise u n a.spec.noiseUniform a.spec.noiseMean a.spec.noiseStd (Render.render R.exp fl32 r H W ps y x) * w ≥
      Render.addNoise u n a.spec.noiseUniform a.spec.noiseMean a.spec.noiseStd (Render.render R.exp fl32 r H W ps' y x) * w :=
  pixel_brighter he hmask u n r H W y x j i ps' ps hps.flip

/-- The images stay the same if the particles do. -/
theorem pixel_same {fl32 : ℚ → ℚ} {R : Generate.Rand ℚ} {a : Args} (u n : ℚ) (r H W y x j i : Nat) (ps ps' : List (Render.Particle ℚ)) (hps : List.Forall₂ Eq ps ps') :
    let w : ℚ := match a.mask with | none => 1 | some m => m.2 j i
    Render.addNoise u n a.spec.noiseUniform a.spec.noiseMean a.spec.noiseStd (Render.render R.exp fl32 r H W ps y x) * w =
      Render.addNoise u n a.spec.noiseUniform a.spec.noiseMean a.spec.noiseStd (Render.render R.exp fl32 r H W ps' y x) * w := by
  rw [List.forall₂_eq_eq_eq] at hps
  rw [hps]

/-- The sampler with other probabilities of hiding, if particles could be hidden or the density varies already. -/
theorem hiding_made {fl fl32 : ℚ → ℚ} {a : Args} {m : Made} (hm : make fl fl32 a = .ok m) {p1 p2 : ℚ} (h1 : a.spec.pHide1 ≤ p1) (l1 : p1 ≤ 1) (h2 : a.spec.pHide2 ≤ p2) (l2 : p2 ≤ 1)
    (hv : 0 < a.spec.pHide1 ∨ 0 < a.spec.pHide2 ∨ a.spec.densityRange.1 ≠ a.spec.densityRange.2) :
    (withHiding p1 p2 a).geometry = a.geometry ∧ make fl fl32 (withHiding p1 p2 a) = .ok m := by
  have hs := (make_ok hm).1
  have hok : specOK (withHiding p1 p2 a).spec (withHiding p1 p2 a).imgOffset = true := by
    unfold specOK at hs ⊢
    simp only [Bool.and_eq_true, decide_eq_true_eq] at hs ⊢
    obtain ⟨⟨⟨⟨⟨⟨⟨⟨⟨⟨⟨⟨⟨⟨s1, s2, s2'⟩, s3, s3'⟩, s4⟩, s4'⟩, s4''⟩, s5⟩, s6⟩, s7⟩, s8⟩, s9⟩, s10⟩, s11⟩, s12⟩, s13⟩ := hs
    exact ⟨⟨⟨⟨⟨⟨⟨⟨⟨⟨⟨⟨⟨⟨s1, s2.trans h1, l1⟩, s3.trans h2, l2⟩, s4⟩, s4'⟩, s4''⟩, s5⟩, s6⟩, s7⟩, s8⟩, s9⟩, s10⟩, s11⟩, s12⟩, s13⟩
  have hg : (withHiding p1 p2 a).geometry = a.geometry := by
    have e : hidden (withHiding p1 p2 a).spec = hidden a.spec := by
      show (decide (0 < p1) || decide (0 < p2) || decide (a.spec.densityRange.1 ≠ a.spec.densityRange.2)) =
        (decide (0 < a.spec.pHide1) || decide (0 < a.spec.pHide2) || decide (a.spec.densityRange.1 ≠ a.spec.densityRange.2))
      rcases hv with h | h | h
      · simp [h, h.trans_le h1]
      · simp [h, h.trans_le h2]
      · simp [h]
    unfold Args.geometry
    rw [e]
    rfl
  refine ⟨hg, ?_⟩
  rw [← hm]
  unfold make
  rw [hok, hs, hg]
  rfl

/-- **C144.** With higher probabilities of hiding the sampler is accepted, no pixel of any image becomes brighter, and nothing else changes: over every history of calls on every
scheduler, for all draws, any rounding and any noise, with a mask or without, without histogram; provided particles may be hidden or the density varies already (otherwise the region of
the particles may be another one). -/
theorem C144_always (fl fl32 : ℚ → ℚ) (R : Generate.Rand ℚ) (he : ∀ t, 0 < R.exp t) (a : Args) (m : Made) (hm : make fl fl32 a = .ok m)
    (hh : a.histogram = none) (hmask : ∀ q, a.mask = some q → ∀ j i, q.2 j i = 0 ∨ q.2 j i = 1) (p1 p2 : ℚ) (h1 : a.spec.pHide1 ≤ p1) (l1 : p1 ≤ 1) (h2 : a.spec.pHide2 ≤ p2) (l2 : p2 ≤ 1)
    (hv : 0 < a.spec.pHide1 ∨ 0 < a.spec.pHide2 ∨ a.spec.densityRange.1 ≠ a.spec.densityRange.2) :
    make fl fl32 (withHiding p1 p2 a) = .ok m ∧ AlwaysAlike (Pixels (· ≥ ·) (· ≥ ·) Eq Eq) fl fl32 R a (withHiding p1 p2 a) m := by
  obtain ⟨hg, hmake⟩ := hiding_made hm h1 l1 h2 l2 hv
  obtain ⟨hi, hi0⟩ := brightness_ok hm
  refine ⟨hmake, alwaysAlike hg (fun k n i f => render_spec (a' := withHiding p1 p2 a) hh hh rfl ⟨⟨rfl, rfl, rfl⟩, rfl, rfl, rfl⟩ rfl rfl rfl (fun _ _ _ => rfl) (fun _ => rfl)
    (T₁ := Darker) (T₂ := Darker) (fun n bounds key i k => ?_) (fun n bounds flow resX resY key i k => ?_) (pixel_darker he hmask) (pixel_darker he hmask) k n i f)⟩
  · exact (Generate.particle_hide fl32 R { params a m with batchSize := n } p1 p2 h1 h2 bounds ⟨0, 0, fun _ _ => (0, 0)⟩ 0 0 key i k hi hi0).1
  · exact (Generate.particle_hide fl32 R { params a m with batchSize := n } p1 p2 h1 h2 bounds flow resX resY key i k hi hi0).2

/-- **C144**: each probability concerns its own image only, over every history of calls on every scheduler. -/
theorem C144_own_image (fl fl32 : ℚ → ℚ) (R : Generate.Rand ℚ) (he : ∀ t, 0 < R.exp t) (a : Args) (m : Made) (hm : make fl fl32 a = .ok m)
    (hh : a.histogram = none) (hmask : ∀ q, a.mask = some q → ∀ j i, q.2 j i = 0 ∨ q.2 j i = 1)
    (hv : 0 < a.spec.pHide1 ∨ 0 < a.spec.pHide2 ∨ a.spec.densityRange.1 ≠ a.spec.densityRange.2) :
    (∀ p1, a.spec.pHide1 ≤ p1 → p1 ≤ 1 →
      make fl fl32 (withHiding p1 a.spec.pHide2 a) = .ok m ∧ AlwaysAlike (Pixels (· ≥ ·) (· = ·) Eq Eq) fl fl32 R a (withHiding p1 a.spec.pHide2 a) m) ∧
    ∀ p2, a.spec.pHide2 ≤ p2 → p2 ≤ 1 →
      make fl fl32 (withHiding a.spec.pHide1 p2 a) = .ok m ∧ AlwaysAlike (Pixels (· = ·) (· ≥ ·) Eq Eq) fl fl32 R a (withHiding a.spec.pHide1 p2 a) m := by
  obtain ⟨hi, hi0⟩ := brightness_ok hm
  have hb : a.spec.pHide1 ≤ 1 ∧ a.spec.pHide2 ≤ 1 := by
    have hs := (make_ok hm).1
    unfold specOK at hs
    simp only [Bool.and_eq_true, decide_eq_true_eq] at hs
    obtain ⟨⟨⟨⟨⟨⟨⟨⟨⟨⟨⟨⟨⟨⟨s1, s2, s2'⟩, s3, s3'⟩, s4⟩, s4'⟩, s4''⟩, s5⟩, s6⟩, s7⟩, s8⟩, s9⟩, s10⟩, s11⟩, s12⟩, s13⟩ := hs
    exact ⟨s2', s3'⟩
  constructor
  · intro p1 h1 l1
    obtain ⟨hg, hmake⟩ := hiding_made hm h1 l1 le_rfl hb.2 hv
    refine ⟨hmake, alwaysAlike hg (fun k n i f => render_spec (a' := withHiding p1 a.spec.pHide2 a) hh hh rfl ⟨⟨rfl, rfl, rfl⟩, rfl, rfl, rfl⟩ rfl rfl rfl (fun _ _ _ => rfl) (fun _ => rfl)
      (T₁ := Darker) (T₂ := Eq) (fun n bounds key i k => ?_) (fun n bounds flow resX resY key i k => ?_) (pixel_darker he hmask) pixel_same k n i f)⟩
    · exact (Generate.particle_hide fl32 R { params a m with batchSize := n } p1 a.spec.pHide2 h1 le_rfl bounds ⟨0, 0, fun _ _ => (0, 0)⟩ 0 0 key i k hi hi0).1
    · rfl
  · intro p2 h2 l2
    obtain ⟨hg, hmake⟩ := hiding_made hm le_rfl hb.1 h2 l2 hv
    refine ⟨hmake, alwaysAlike hg (fun k n i f => render_spec (a' := withHiding a.spec.pHide1 p2 a) hh hh rfl ⟨⟨rfl, rfl, rfl⟩, rfl, rfl, rfl⟩ rfl rfl rfl (fun _ _ _ => rfl) (fun _ => rfl)
      (T₁ := Eq) (T₂ := Darker) (fun n bounds key i k => ?_) (fun n bounds flow resX resY key i k => ?_) pixel_same (pixel_darker he hmask) k n i f)⟩
    · rfl
    · exact (Generate.particle_hide fl32 R { params a m with batchSize := n } a.spec.pHide1 p2 le_rfl h2 bounds flow resX resY key i k hi hi0).2

/-! ## Examples -/

/-- Two pixels of the first image, two of the second, and the reported density, of the first pair of one call. -/
def densityOf (a : Args) : Option (List (List (List ℚ × List ℚ × ℚ))) :=
  (Sampler.run (always ⟨20, 20, fun _ _ => (2, 0)⟩) (gen id id demoDraws a demoShiftMade) demoShiftMade.cfg [.next] (Sampler.init demoShiftMade.cfg ())).map
    (fun q => q.1.map (fun o => match o with
      | .batch x => (x.images.take 1).map (fun p : Pair => ([p.first.at_ 1 0, p.first.at_ 2 1], [p.second.at_ 1 2, p.second.at_ 0 0], p.density))
      | _ => []))

/-- The hypotheses are met. -/
example : make id id demoShift = .ok demoShiftMade ∧ Monotone (id : ℚ → ℚ) ∧ Generate.Lawful demoDraws ∧ (∀ t, 0 < demoDraws.exp t) ∧ demoShift.mask = none ∧ demoShift.histogram = none ∧
    demoShift.spec.densityRange = (1 / 50, 1 / 25) ∧ demoShift.spec.pHide1 = 0 ∧ demoShift.spec.pHide2 = 0 := by
  refine ⟨by decide +kernel, monotone_id, fun k n => ?_, Render.expLike_toy.1, rfl, rfl, by decide +kernel, rfl, rfl⟩
  simp only [demoDraws]
  split <;> norm_num

/-- A higher density: more particles. -/
example : densityOf demoShift = some [[([714093065 / 23707644, 170469775 / 836772], [714093065 / 23707644, 0], 11 / 400)]] ∧
    densityOf (withDensity (3 / 100) demoShift) = some [[([276808105 / 7902548, 66696175 / 278924], [276808105 / 7902548, 0], 27 / 800)]] ∧
    densityOf (withDensity (39 / 1000) demoShift) = some [[([165150195 / 3951274, 255], [165150195 / 3951274, 0], 63 / 1600)]] :=
  ⟨by decide +kernel, by decide +kernel, by decide +kernel⟩

/-- Hiding in the first image, and in the second. -/
example : densityOf (withHiding (7 / 10) 0 demoShift) = some [[([21875 / 2229, 21875 / 309], [714093065 / 23707644, 0], 11 / 400)]] ∧
    densityOf (withHiding 0 (7 / 10) demoShift) = some [[([714093065 / 23707644, 170469775 / 836772], [21875 / 2229, 0], 11 / 400)]] :=
  ⟨by decide +kernel, by decide +kernel⟩

end Verif.Synthetic
