import Verif.Spec.Compare
import Verif.Proofs.Parametric
import Verif.Props.Hiding
/-!
# Noise and brightness (C153, C154)
-/

namespace Verif.Compare
open Verif

theorem sched_refl {S F : Type} (sch : Sampler.ISched S (Sampler.FlowBatch F)) : Sampler.SchedRel Eq sch sch where
  getBatch n s := by
    rcases sch.getBatch n s with _ | ⟨e | b, s'⟩
    · exact .inl ⟨rfl, rfl⟩
    · exact .inr (.inl ⟨e, s', rfl, rfl⟩)
    · exact .inr (.inr ⟨b, b, s', rfl, rfl, List.forall₂_same.2 (fun _ _ => rfl), rfl, rfl⟩)
  reset := rfl
  episodic := rfl

/-- It is enough to compare single image pairs. -/
theorem alwaysAlike {P : Synthetic.Pair → Synthetic.Pair → Prop} {fl fl32 : ℚ → ℚ} {R : Generate.Rand ℚ} {a a' : Synthetic.Args} {m : Synthetic.Made}
    (hg : a'.geometry = a.geometry) (h : ∀ k n i f, P (Synthetic.render fl fl32 R a m k n i f) (Synthetic.render fl fl32 R a' m k n i f)) :
    AlwaysAlike P fl fl32 R a a' m := by
  intro S sch s ops
  have hrel : Sampler.GenRel Eq Eq Eq P (Synthetic.gen fl fl32 R a m) (Synthetic.gen fl fl32 R a' m) := by
    refine ⟨fun f f' e => ?_, fun k b i f f' e => ?_⟩
    · subst e
      unfold Synthetic.gen
      rw [hg]
      exact ⟨rfl, rfl⟩
    · subst e
      exact h k b i f
  rcases Sampler.run_rel hrel (sched_refl sch) m.cfg ops (Sampler.init_rel _ _ m.cfg s) with ⟨h1, h2⟩ | ⟨os, os', t, t', h1, h2, h3⟩
  · exact .inl ⟨by rw [h1]; rfl, by rw [h2]; rfl⟩
  · refine .inr ⟨os, os', by rw [h1]; rfl, by rw [h2]; rfl, h3.imp (fun o o' ho => ?_)⟩
    cases o <;> cases o' <;> first | exact ho.elim | skip
    · obtain ⟨q1, q2, q3, q4, q5⟩ := ho
      exact ⟨q1, (List.forall₂_eq_eq_eq ▸ q2 : _ = _).symm, q3.symm, q4.symm, q5.symm⟩
    · exact (show _ = _ from ho).symm
    · trivial

end Verif.Compare

namespace Verif.Generate
open Verif Render
variable {K : Type*} [Field K] [LinearOrder K] [IsStrictOrderedRing K] [FloorRing K]

theorem cap_mono {v w : K} (h : v ≤ w) : min (max v 0) 255 ≤ min (max w 0) 255 := min_le_min_right _ (max_le_max_right _ h)

theorem cap_near (v w : K) : |min (max v 0) 255 - min (max w 0) 255| ≤ |v - w| := by
  refine (abs_min_sub_min_le_max _ _ _ _).trans ?_
  rw [sub_self, abs_zero, max_eq_left (abs_nonneg _)]
  refine (abs_max_sub_max_le_max _ _ _ _).trans ?_
  rw [sub_self, abs_zero, max_eq_left (abs_nonneg _)]

/-- More noise, at one pixel. -/
theorem addNoise_more (u n v : K) (hu : 0 ≤ u) (hu1 : u < 1) {nu nu' mean mean' : K} (h0 : 0 ≤ nu) (h1 : nu ≤ nu') (h2 : mean ≤ mean') (std : K) :
    addNoise u n nu mean std v ≤ addNoise u n nu' mean' std v ∧ addNoise u n nu' mean' std v ≤ addNoise u n nu mean std v + ((nu' - nu) + (mean' - mean)) := by
  unfold addNoise
  have e : ∀ x : K, 0 ≤ x → max 0 (u * (x - 0) + 0) = u * x := fun x hx => by
    rw [sub_zero, add_zero, max_eq_right (mul_nonneg hu hx)]
  rw [e nu h0, e nu' (h0.trans h1)]
  have hd : u * nu ≤ u * nu' := mul_le_mul_of_nonneg_left h1 hu
  have hd' : u * nu' - u * nu ≤ nu' - nu := by nlinarith
  refine ⟨cap_mono (by linarith), ?_⟩
  have := (abs_le.1 (cap_near (v + u * nu' + mean' + n * std) (v + u * nu + mean + n * std))).2
  have h3 : |v + u * nu' + mean' + n * std - (v + u * nu + mean + n * std)| = (u * nu' - u * nu) + (mean' - mean) := by
    rw [abs_of_nonneg (by linarith)]
    ring
  rw [h3] at this
  linarith

/-- Other noise, at one pixel. -/
theorem addNoise_other (u n v : K) (hu : 0 ≤ u) (hu1 : u < 1) {nu nu' : K} (h0 : 0 ≤ nu) (h0' : 0 ≤ nu') (mean mean' std std' : K) {B : K} (hB : |n| ≤ B) :
    |addNoise u n nu' mean' std' v - addNoise u n nu mean std v| ≤ |nu' - nu| + |mean' - mean| + B * |std' - std| := by
  unfold addNoise
  have e : ∀ x : K, 0 ≤ x → max 0 (u * (x - 0) + 0) = u * x := fun x hx => by
    rw [sub_zero, add_zero, max_eq_right (mul_nonneg hu hx)]
  rw [e nu h0, e nu' h0']
  refine (cap_near _ _).trans ?_
  have h3 : v + u * nu' + mean' + n * std' - (v + u * nu + mean + n * std) = u * (nu' - nu) + (mean' - mean) + n * (std' - std) := by ring
  rw [h3]
  refine (abs_add_le _ _).trans (add_le_add ((abs_add_le _ _).trans (add_le_add ?_ le_rfl)) ?_)
  · rw [abs_mul, abs_of_nonneg hu]
    exact mul_le_of_le_one_left (abs_nonneg _) hu1.le
  · rw [abs_mul]
    exact mul_le_mul_of_nonneg_right hB (abs_nonneg _)

/-- The pixels before masking depend on the noise only through `addNoise`, with the same draws. -/
theorem finish_noise (fl32 : K → K) (R : Rand K) (p : Params K) (nu mean std : K) (bounds : Nat × Nat) (mask : Option (Nat → Nat → K)) (key : KeyTerm) (ps : List (Particle K)) (j i : Nat) :
    ∃ (k : KeyTerm) (l : KeyTerm) (c : Nat) (v : K),
      (finish fl32 R p bounds mask none key ps).at_ j i = addNoise (R.uniform k c) (R.normal l c) p.noiseUniform p.noiseMean p.noiseStd v * (match mask with | none => 1 | some m => m j i) ∧
      (finish fl32 R { p with noiseUniform := nu, noiseMean := mean, noiseStd := std } bounds mask none key ps).at_ j i =
        addNoise (R.uniform k c) (R.normal l c) nu mean std v * (match mask with | none => 1 | some m => m j i) := by
  unfold finish matched masked noisy crop imgGen
  cases mask with
  | none => exact ⟨_, _, _, _, by simp only [mul_one]; rfl, by simp only [mul_one]; rfl⟩
  | some m => exact ⟨_, _, _, _, rfl, rfl⟩

end Verif.Generate

namespace Verif.Synthetic
open Verif Compare

/-- The arguments with other noise. -/
def withNoise (nu mean std : ℚ) (a : Args) : Args := { a with spec := { a.spec with noiseUniform := nu, noiseMean := mean, noiseStd := std } }

theorem make_withNoise {fl fl32 : ℚ → ℚ} {a : Args} {m : Made} (hm : make fl fl32 a = .ok m) {nu mean std : ℚ} (h1 : 0 ≤ nu) (h2 : 0 ≤ mean) (h3 : 0 ≤ std) :
    make fl fl32 (withNoise nu mean std a) = .ok m := by
  have h : specOK (withNoise nu mean std a).spec (withNoise nu mean std a).imgOffset = true := by
    have := (make_ok hm).1
    unfold specOK at this ⊢
    simp only [Bool.and_eq_true, decide_eq_true_eq] at this ⊢
    exact ⟨⟨this.1.1, h1, h2, h3⟩, this.2⟩
  rw [← hm]
  unfold make
  rw [h, (make_ok hm).1]
  rfl

/-- The image pairs with other noise, if the pixels are related. -/
theorem render_noise {fl fl32 : ℚ → ℚ} {R : Generate.Rand ℚ} {a : Args} {m : Made} (hh : a.histogram = none) (nu mean std : ℚ) {P : ℚ → ℚ → Prop}
    (hP : ∀ (k l : KeyTerm) (c j i : Nat) (v : ℚ), let w : ℚ := match a.mask with | none => 1 | some m => m.2 j i
      P (Render.addNoise (R.uniform k c) (R.normal l c) a.spec.noiseUniform a.spec.noiseMean a.spec.noiseStd v * w) (Render.addNoise (R.uniform k c) (R.normal l c) nu mean std v * w))
    (k : KeyTerm) (n i : Nat) (f : Adapter.Field2 ℚ) :
    Pixels P P Eq Eq (render fl fl32 R a m k n i f) (render fl fl32 R (withNoise nu mean std a) m k n i f) := by
  have hn : histogramOf a = none := by unfold histogramOf; rw [hh]; rfl
  have hn' : histogramOf (withNoise nu mean std a) = none := hn
  have hf (key : KeyTerm) (ps : List (Render.Particle ℚ)) (j i : Nat) :
      P ((Generate.finish fl32 R { params a m with batchSize := n } (m.geo.bounds.1.toNat, m.geo.bounds.2.toNat) (a.mask.map Prod.snd) none key ps).at_ j i)
        ((Generate.finish fl32 R { params (withNoise nu mean std a) m with batchSize := n } (m.geo.bounds.1.toNat, m.geo.bounds.2.toNat) (a.mask.map Prod.snd) none key ps).at_ j i) := by
    obtain ⟨k', l, c, v, h1, h2⟩ := Generate.finish_noise fl32 R { params a m with batchSize := n } nu mean std (m.geo.bounds.1.toNat, m.geo.bounds.2.toNat) (a.mask.map Prod.snd) key ps j i
    have h := hP k' l c j i v
    rw [h1]
    refine (congrArg (P _) h2).mpr ?_
    cases hm : a.mask with
    | none => rw [hm] at h; exact h
    | some q => rw [hm] at h; exact h
  unfold render Generate.pair
  rw [hn, hn']
  refine ⟨?_, ?_, fun j i => ?_, fun j i => ?_, rfl, rfl, rfl, rfl⟩
  · dsimp only
    rw [(Generate.finish_size _ _ _ _ _ _ _ _).1, (Generate.finish_size _ _ _ _ _ _ _ _).2, (Generate.finish_size _ _ _ _ _ _ _ _).1, (Generate.finish_size _ _ _ _ _ _ _ _).2]
    rfl
  · dsimp only
    rw [(Generate.finish_size _ _ _ _ _ _ _ _).1, (Generate.finish_size _ _ _ _ _ _ _ _).2, (Generate.finish_size _ _ _ _ _ _ _ _).1, (Generate.finish_size _ _ _ _ _ _ _ _).2]
    rfl
  · exact hf _ _ j i
  · exact hf _ _ j i

/-- Not darker, and brighter by at most `d`. -/
def More (d v v' : ℚ) : Prop := v ≤ v' ∧ v' ≤ v + d

/-- **C153.** Raising `noise_uniform` and `noise_gaussian_mean` is accepted, makes no pixel of any image darker and none brighter by more than they were raised, and changes nothing else:
over every history of calls on every scheduler, for all draws of the distributions, with a mask or without, without histogram. -/
theorem C153_more (fl fl32 : ℚ → ℚ) (R : Generate.Rand ℚ) (hR : Generate.Lawful R) (a : Args) (m : Made) (hm : make fl fl32 a = .ok m) (hh : a.histogram = none)
    (hmask : ∀ q, a.mask = some q → ∀ j i, q.2 j i = 0 ∨ q.2 j i = 1) (nu mean : ℚ) (h1 : a.spec.noiseUniform ≤ nu) (h2 : a.spec.noiseMean ≤ mean) :
    make fl fl32 (withNoise nu mean a.spec.noiseStd a) = .ok m ∧
    AlwaysAlike (Pixels (More ((nu - a.spec.noiseUniform) + (mean - a.spec.noiseMean))) (More ((nu - a.spec.noiseUniform) + (mean - a.spec.noiseMean))) Eq Eq) fl fl32 R a (withNoise nu mean a.spec.noiseStd a) m := by
  have hs := (make_ok hm).1
  unfold specOK at hs
  simp only [Bool.and_eq_true, decide_eq_true_eq] at hs
  obtain ⟨n1, n2, n3⟩ := hs.1.2
  refine ⟨make_withNoise hm (n1.trans h1) (n2.trans h2) n3, alwaysAlike rfl (fun k n i f => render_noise hh nu mean _ (fun k l c j i v => ?_) k n i f)⟩
  have h := Generate.addNoise_more (R.uniform k c) (R.normal l c) v (hR k c).1 (hR k c).2 n1 h1 h2 a.spec.noiseStd
  unfold More
  cases hq : a.mask with
  | none => simpa only [mul_one] using h
  | some q =>
    dsimp only
    rcases hmask q hq j i with e | e
    · rw [e]; simp only [mul_zero, zero_add]; exact ⟨le_rfl, by linarith⟩
    · simpa only [e, mul_one] using h

/-- **C153.** Other noise changes no pixel by more than the changes of `noise_uniform`, of `noise_gaussian_mean`, and `B` times that of `noise_gaussian_std`, if no draw of the standard normal
distribution exceeds `B`; it changes nothing else. In particular, noise changes no pixel by more than `noise_uniform + noise_gaussian_mean + B * noise_gaussian_std`. -/
theorem C153_other (fl fl32 : ℚ → ℚ) (R : Generate.Rand ℚ) (hR : Generate.Lawful R) (B : ℚ) (hB : ∀ k n, |R.normal k n| ≤ B) (a : Args) (m : Made) (hm : make fl fl32 a = .ok m)
    (hh : a.histogram = none) (hmask : ∀ q, a.mask = some q → ∀ j i, q.2 j i = 0 ∨ q.2 j i = 1) (nu mean std : ℚ) (h1 : 0 ≤ nu) (h2 : 0 ≤ mean) (h3 : 0 ≤ std) :
    make fl fl32 (withNoise nu mean std a) = .ok m ∧
    (let near := fun v v' : ℚ => |v' - v| ≤ |nu - a.spec.noiseUniform| + |mean - a.spec.noiseMean| + B * |std - a.spec.noiseStd|
    AlwaysAlike (Pixels near near Eq Eq) fl fl32 R a (withNoise nu mean std a) m) := by
  have hs := (make_ok hm).1
  unfold specOK at hs
  simp only [Bool.and_eq_true, decide_eq_true_eq] at hs
  obtain ⟨n1, n2, n3⟩ := hs.1.2
  refine ⟨make_withNoise hm h1 h2 h3, alwaysAlike rfl (fun k n i f => render_noise hh nu mean _ (fun k l c j i v => ?_) k n i f)⟩
  have h := Generate.addNoise_other (R.uniform k c) (R.normal l c) v (hR k c).1 (hR k c).2 n1 h1 a.spec.noiseMean mean a.spec.noiseStd std (hB l c)
  cases hq : a.mask with
  | none => simpa only [mul_one] using h
  | some q =>
    dsimp only
    rcases hmask q hq j i with e | e
    · rw [e]
      simp only [mul_zero, sub_zero, abs_zero]
      exact (abs_nonneg _).trans h
    · simpa only [e, mul_one] using h

end Verif.Synthetic

namespace Verif.Generate
open Verif Render
variable {K : Type*} [Field K] [LinearOrder K] [IsStrictOrderedRing K] [FloorRing K]

/-- What the finished images depend on, apart from the particles. -/
def SameCamera (p p' : Params K) : Prop :=
  (p'.noiseUniform = p.noiseUniform ∧ p'.noiseMean = p.noiseMean ∧ p'.noiseStd = p.noiseStd) ∧ p'.diameterRanges = p.diameterRanges ∧ p'.imgOffset = p.imgOffset ∧ p'.imageShape = p.imageShape

/-- The pixels depend on the particles only through what they add up to. -/
theorem finish_light (fl32 : K → K) (R : Rand K) (p p' : Params K) (hp : SameCamera p p') (bounds : Nat × Nat) (mask : Option (Nat → Nat → K)) (key : KeyTerm) (ps ps' : List (Particle K))
    (j i : Nat) :
    ∃ (u n : K) (r y x : Nat),
      (finish fl32 R p bounds mask none key ps).at_ j i = addNoise u n p.noiseUniform p.noiseMean p.noiseStd (render R.exp fl32 r bounds.1 bounds.2 ps y x) *
        (match mask with | none => 1 | some m => m j i) ∧
      (finish fl32 R p' bounds mask none key ps').at_ j i =
        addNoise u n p.noiseUniform p.noiseMean p.noiseStd (render R.exp fl32 r bounds.1 bounds.2 ps' y x) * (match mask with | none => 1 | some m => m j i) := by
  obtain ⟨⟨h1, h2, h3⟩, h4, h5, h6⟩ := hp
  unfold finish matched masked noisy crop imgGen maxDiameter
  rw [h1, h2, h3, h4, h5, h6]
  cases mask with
  | none => exact ⟨_, _, _, _, _, by simp only [mul_one]; rfl, by simp only [mul_one]; rfl⟩
  | some m => exact ⟨_, _, _, _, _, rfl, rfl⟩

theorem row_rel {Q : K × K → K × K → Prop} {l l' : List (K × K)} (h : List.Forall₂ Q l l') (hne : l ≠ []) (n : Nat) : Q (row l n) (row l' n) := by
  unfold row
  rw [← h.length_eq, List.getD_eq_getElem?_getD, List.getD_eq_getElem?_getD]
  have hlt : min n (l.length - 1) < l.length := lt_of_le_of_lt (min_le_right _ _) (Nat.sub_lt (List.length_pos_iff.2 hne) Nat.one_pos)
  have hlt' : min n (l.length - 1) < l'.length := h.length_eq ▸ hlt
  rw [List.getElem?_eq_getElem hlt, List.getElem?_eq_getElem hlt']
  exact List.Forall₂.get h hlt hlt'

theorem between_mono {lo hi lo' hi' u : K} (hu : 0 ≤ u) (hu1 : u < 1) (h1 : lo ≤ lo') (h2 : hi ≤ hi') : between lo hi u ≤ between lo' hi' u := by
  unfold between
  refine max_le_max h1 ?_
  have : 0 ≤ (1 - u) * (lo' - lo) := mul_nonneg (by linarith) (by linarith)
  have : 0 ≤ u * (hi' - hi) := mul_nonneg hu (by linarith)
  linarith

theorem clip_mono {v v' lo hi lo' hi' : K} (h : v ≤ v') (h1 : lo ≤ lo') (h2 : hi ≤ hi') : clip v lo hi ≤ clip v' lo' hi' := min_le_min (max_le_max h h1) h2

/-- Brighter particles of either image. -/
theorem particle_brighter (fl32 : K → K) (R : Rand K) (hR : Lawful R) (p : Params K) (l : List (K × K)) (hl : List.Forall₂ (fun q q' => q.1 ≤ q'.1 ∧ q.2 ≤ q'.2) p.intensityRanges l)
    (hne : p.intensityRanges ≠ []) (bounds : Nat × Nat) (flow : Adapter.Field2 K) (resX resY : K) (key : KeyTerm) (i k : Nat) :
    let p' := { p with intensityRanges := l }
    (particle1 fl32 R p bounds key i k = { particle1 fl32 R p' bounds key i k with amp := (particle1 fl32 R p bounds key i k).amp } ∧
      (particle1 fl32 R p bounds key i k).amp ≤ (particle1 fl32 R p' bounds key i k).amp) ∧
    (particle2 fl32 R p bounds flow resX resY key i k =
        { particle2 fl32 R p' bounds flow resX resY key i k with amp := (particle2 fl32 R p bounds flow resX resY key i k).amp } ∧
      (particle2 fl32 R p bounds flow resX resY key i k).amp ≤ (particle2 fl32 R p' bounds flow resX resY key i k).amp) := by
  intro p'
  have hi : (rangeIdx R p' key i).2.1 = (rangeIdx R p key i).2.1 := by
    show R.randint _ l.length = R.randint _ p.intensityRanges.length
    rw [hl.length_eq]
  obtain ⟨r1, r2⟩ := row_rel hl hne (rangeIdx R p key i).2.1
  have hb : between (row p.intensityRanges (rangeIdx R p key i).2.1).1 (row p.intensityRanges (rangeIdx R p key i).2.1).2 (R.uniform (propKey key i 3) k) ≤
      between (row l (rangeIdx R p' key i).2.1).1 (row l (rangeIdx R p' key i).2.1).2 (R.uniform (propKey key i 3) k) := by
    rw [hi]
    exact between_mono (hR _ _).1 (hR _ _).2 r1 r2
  have h01 (c : Bool) : (0 : K) ≤ if c = true then 1 else 0 := by split <;> simp
  refine ⟨⟨rfl, ?_⟩, rfl, ?_⟩
  · exact mul_le_mul_of_nonneg_right hb (h01 _)
  · refine mul_le_mul_of_nonneg_right (clip_mono (add_le_add_left hb _) ?_ ?_) (h01 _)
    · show _ ≤ (row l (rangeIdx R p' key i).2.1).1
      rw [hi]; exact r1
    · show _ ≤ (row l (rangeIdx R p' key i).2.1).2
      rw [hi]; exact r2

theorem share_scale (exp fl : K → K) (r H W j i : Nat) (p : Particle K) (c : K) :
    share exp fl r H W j i { p with amp := c * p.amp } = c * share exp fl r H W j i p := by
  unfold share patch
  dsimp only
  rw [List.map_flatMap, List.map_flatMap, List.flatMap_def, List.flatMap_def, List.sum_flatten, List.sum_flatten, List.map_map, List.map_map, ← List.sum_map_mul_left]
  refine congrArg List.sum (List.map_congr_left (fun a _ => ?_))
  simp only [Function.comp, List.map_map]
  rw [← List.sum_map_mul_left]
  refine congrArg List.sum (List.map_congr_left (fun b _ => ?_))
  simp only [Function.comp, effect]
  split
  · unfold gaussian
    ring
  · ring

theorem row_scale (c : K) (l : List (K × K)) (n : Nat) : row (l.map (fun q => (c * q.1, c * q.2))) n = (c * (row l n).1, c * (row l n).2) := by
  unfold row
  rw [List.length_map, List.getD_eq_getElem?_getD, List.getD_eq_getElem?_getD, List.getElem?_map]
  cases l[min n (l.length - 1)]? <;> simp

/-- Particles of either image whose brightness is multiplied. -/
theorem particle_scale (fl32 : K → K) (R : Rand K) (p : Params K) (c var : K) (hc : 0 ≤ c) (hvar : R.sqrt var = c * R.sqrt p.intensityVar) (bounds : Nat × Nat)
    (flow : Adapter.Field2 K) (resX resY : K) (key : KeyTerm) (i k : Nat) :
    let p' := { p with intensityRanges := p.intensityRanges.map (fun q => (c * q.1, c * q.2)), intensityVar := var }
    particle1 fl32 R p' bounds key i k = { particle1 fl32 R p bounds key i k with amp := c * (particle1 fl32 R p bounds key i k).amp } ∧
    particle2 fl32 R p' bounds flow resX resY key i k = { particle2 fl32 R p bounds flow resX resY key i k with amp := c * (particle2 fl32 R p bounds flow resX resY key i k).amp } := by
  intro p'
  have hi : (rangeIdx R p' key i).2.1 = (rangeIdx R p key i).2.1 := by
    show R.randint _ (p.intensityRanges.map _).length = R.randint _ p.intensityRanges.length
    rw [List.length_map]
  have hb (lo hi u : K) : between (c * lo) (c * hi) u = c * between lo hi u := by
    unfold between
    rw [mul_max_of_nonneg _ _ hc]
    congr 1
    ring
  have hcl (v lo hi : K) : clip (c * v) (c * lo) (c * hi) = c * clip v lo hi := by
    unfold clip
    rw [mul_min_of_nonneg _ _ hc, mul_max_of_nonneg _ _ hc]
  have hrow : row p'.intensityRanges (rangeIdx R p' key i).2.1 = (c * (row p.intensityRanges (rangeIdx R p key i).2.1).1, c * (row p.intensityRanges (rangeIdx R p key i).2.1).2) := by
    rw [hi]
    exact row_scale c _ _
  constructor
  · have : (particle1 fl32 R p' bounds key i k).amp = c * (particle1 fl32 R p bounds key i k).amp := by
      unfold particle1
      dsimp only
      rw [hrow, hb, mul_assoc]
      rfl
    rw [← this]
    rfl
  · have : (particle2 fl32 R p' bounds flow resX resY key i k).amp = c * (particle2 fl32 R p bounds flow resX resY key i k).amp := by
      unfold particle2
      dsimp only
      rw [hrow, hb, show R.sqrt p'.intensityVar = c * R.sqrt p.intensityVar from hvar, mul_left_comm (R.normal _ _), ← mul_add, hcl, mul_assoc]
      rfl
    rw [← this]
    rfl

end Verif.Generate

namespace Verif.Synthetic
open Verif Compare

/-- The arguments with other ranges and another variance of the brightness of particles. -/
def withBrightness (l : List (ℚ × ℚ)) (var : ℚ) (a : Args) : Args := { a with spec := { a.spec with intensityRanges := l, intensityVar := var } }

/-- Ranges of positive numbers in order, at least one. -/
def BrightnessOK (l : List (ℚ × ℚ)) : Prop := l ≠ [] ∧ ∀ q ∈ l, 0 < q.1 ∧ q.1 ≤ q.2

theorem make_withBrightness {fl fl32 : ℚ → ℚ} {a : Args} {m : Made} (hm : make fl fl32 a = .ok m) {l : List (ℚ × ℚ)} (hl : BrightnessOK l) {var : ℚ} (hv : 0 ≤ var) :
    make fl fl32 (withBrightness l var a) = .ok m := by
  have h : specOK (withBrightness l var a).spec (withBrightness l var a).imgOffset = true := by
    have := (make_ok hm).1
    unfold specOK at this ⊢
    simp only [Bool.and_eq_true, decide_eq_true_eq, List.all_eq_true] at this ⊢
    obtain ⟨⟨⟨⟨⟨⟨⟨h1, h2⟩, h3⟩, h4⟩, h5⟩, h6, h7, h8⟩, h9⟩, h10⟩ := this
    exact ⟨⟨⟨⟨⟨⟨⟨h1, List.length_pos_iff.2 hl.1⟩, hl.2⟩, h4⟩, h5⟩, h6, hv, h8⟩, h9⟩, h10⟩
  rw [← hm]
  unfold make
  rw [h, (make_ok hm).1]
  rfl

/-- The image pairs with another specification that concerns the particles, if the pixels are related. -/
theorem render_spec {fl fl32 : ℚ → ℚ} {R : Generate.Rand ℚ} {a a' : Args} {m : Made} (hh : a.histogram = none) (hh' : a'.histogram = none) (hmk : a'.mask = a.mask)
    (hcam : Generate.SameCamera (params a m) (params a' m)) (hnum : a'.spec.densityRange.2 = a.spec.densityRange.2) (hrho : a'.spec.rhoRanges = a.spec.rhoRanges)
    (hlen : a'.spec.intensityRanges.length = a.spec.intensityRanges.length) {P₁ P₂ D : ℚ → ℚ → Prop} {Q : ℚ × ℚ → ℚ × ℚ → Prop}
    (hD : ∀ n k i, D (Generate.density fl32 R { params a m with batchSize := n } k i) (Generate.density fl32 R { params a' m with batchSize := n } k i))
    (hQ : ∀ n, Q (Generate.row a.spec.intensityRanges n) (Generate.row a'.spec.intensityRanges n)) {T₁ T₂ : Render.Particle ℚ → Render.Particle ℚ → Prop}
    (hT₁ : ∀ (n : Nat) (bounds : Nat × Nat) (key : KeyTerm) (i k : Nat),
      T₁ (Generate.particle1 fl32 R { params a m with batchSize := n } bounds key i k) (Generate.particle1 fl32 R { params a' m with batchSize := n } bounds key i k))
    (hT₂ : ∀ (n : Nat) (bounds : Nat × Nat) (flow : Adapter.Field2 ℚ) (resX resY : ℚ) (key : KeyTerm) (i k : Nat),
      T₂ (Generate.particle2 fl32 R { params a m with batchSize := n } bounds flow resX resY key i k)
        (Generate.particle2 fl32 R { params a' m with batchSize := n } bounds flow resX resY key i k))
    (hP₁ : ∀ (u n : ℚ) (r H W y x j i : Nat) (ps ps' : List (Render.Particle ℚ)), List.Forall₂ T₁ ps ps' → let w : ℚ := match a.mask with | none => 1 | some m => m.2 j i
      P₁ (Render.addNoise u n a.spec.noiseUniform a.spec.noiseMean a.spec.noiseStd (Render.render R.exp fl32 r H W ps y x) * w)
        (Render.addNoise u n a.spec.noiseUniform a.spec.noiseMean a.spec.noiseStd (Render.render R.exp fl32 r H W ps' y x) * w))
    (hP₂ : ∀ (u n : ℚ) (r H W y x j i : Nat) (ps ps' : List (Render.Particle ℚ)), List.Forall₂ T₂ ps ps' → let w : ℚ := match a.mask with | none => 1 | some m => m.2 j i
      P₂ (Render.addNoise u n a.spec.noiseUniform a.spec.noiseMean a.spec.noiseStd (Render.render R.exp fl32 r H W ps y x) * w)
        (Render.addNoise u n a.spec.noiseUniform a.spec.noiseMean a.spec.noiseStd (Render.render R.exp fl32 r H W ps' y x) * w))
    (k : KeyTerm) (n i : Nat) (f : Adapter.Field2 ℚ) :
    Pixels P₁ P₂ D Q (render fl fl32 R a m k n i f) (render fl fl32 R a' m k n i f) := by
  have hn : histogramOf a = none := by unfold histogramOf; rw [hh]; rfl
  have hn' : histogramOf a' = none := by unfold histogramOf; rw [hh']; rfl
  have hcam' : Generate.SameCamera { params a m with batchSize := n } { params a' m with batchSize := n } := hcam
  have hf {T : Render.Particle ℚ → Render.Particle ℚ → Prop} {P : ℚ → ℚ → Prop}
      (hP : ∀ (u n : ℚ) (r H W y x j i : Nat) (ps ps' : List (Render.Particle ℚ)), List.Forall₂ T ps ps' → let w : ℚ := match a.mask with | none => 1 | some m => m.2 j i
        P (Render.addNoise u n a.spec.noiseUniform a.spec.noiseMean a.spec.noiseStd (Render.render R.exp fl32 r H W ps y x) * w)
          (Render.addNoise u n a.spec.noiseUniform a.spec.noiseMean a.spec.noiseStd (Render.render R.exp fl32 r H W ps' y x) * w))
      (key : KeyTerm) (ps ps' : List (Render.Particle ℚ)) (hps : List.Forall₂ T ps ps') (j i : Nat) :
      P ((Generate.finish fl32 R { params a m with batchSize := n } (m.geo.bounds.1.toNat, m.geo.bounds.2.toNat) (a.mask.map Prod.snd) none key ps).at_ j i)
        ((Generate.finish fl32 R { params a' m with batchSize := n } (m.geo.bounds.1.toNat, m.geo.bounds.2.toNat) (a.mask.map Prod.snd) none key ps').at_ j i) := by
    obtain ⟨u, v, r, y, x, h1, h2⟩ := Generate.finish_light fl32 R _ _ hcam' (m.geo.bounds.1.toNat, m.geo.bounds.2.toNat) (a.mask.map Prod.snd) key ps ps' j i
    have h := hP u v r m.geo.bounds.1.toNat m.geo.bounds.2.toNat y x j i ps ps' hps
    rw [h1, h2]
    cases hm : a.mask with
    | none => rw [hm] at h; exact h
    | some q => rw [hm] at h; exact h
  have hnp (bounds : Nat × Nat) : Generate.numParticles fl bounds { params a' m with batchSize := n } = Generate.numParticles fl bounds { params a m with batchSize := n } := by
    show ⌊fl (_ * a'.spec.densityRange.2)⌋.toNat = ⌊fl (_ * a.spec.densityRange.2)⌋.toNat
    rw [hnum]
  unfold render Generate.pair
  rw [hn, hn', hmk]
  refine ⟨?_, ?_, fun j i => ?_, fun j i => ?_, hD n k i, ?_, ?_, ?_⟩
  · dsimp only
    rw [(Generate.finish_size _ _ _ _ _ _ _ _).1, (Generate.finish_size _ _ _ _ _ _ _ _).2, (Generate.finish_size _ _ _ _ _ _ _ _).1, (Generate.finish_size _ _ _ _ _ _ _ _).2,
      hcam'.2.2.1, hcam'.2.2.2]
  · dsimp only
    rw [(Generate.finish_size _ _ _ _ _ _ _ _).1, (Generate.finish_size _ _ _ _ _ _ _ _).2, (Generate.finish_size _ _ _ _ _ _ _ _).1, (Generate.finish_size _ _ _ _ _ _ _ _).2,
      hcam'.2.2.1, hcam'.2.2.2]
  · dsimp only
    rw [hnp]
    refine hf hP₁ _ _ _ ?_ j i
    rw [List.forall₂_map_left_iff, List.forall₂_map_right_iff]
    exact List.forall₂_same.2 (fun c _ => hT₁ n _ _ _ c)
  · dsimp only
    rw [hnp]
    refine hf hP₂ _ _ _ ?_ j i
    rw [List.forall₂_map_left_iff, List.forall₂_map_right_iff]
    exact List.forall₂_same.2 (fun c _ => hT₂ n _ _ _ _ _ _ c)
  · show Generate.row a'.spec.diameterRanges (R.randint (Generate.subkey k i 6) a'.spec.diameterRanges.length) =
      Generate.row a.spec.diameterRanges (R.randint (Generate.subkey k i 6) a.spec.diameterRanges.length)
    rw [show a'.spec.diameterRanges = a.spec.diameterRanges from hcam.2.1]
  · show Q (Generate.row a.spec.intensityRanges (R.randint (Generate.subkey k i 7) a.spec.intensityRanges.length))
      (Generate.row a'.spec.intensityRanges (R.randint (Generate.subkey k i 7) a'.spec.intensityRanges.length))
    rw [hlen]
    exact hQ _
  · show Generate.row a'.spec.rhoRanges (R.randint (Generate.subkey k i 8) a'.spec.rhoRanges.length) =
      Generate.row a.spec.rhoRanges (R.randint (Generate.subkey k i 8) a.spec.rhoRanges.length)
    rw [hrho]

/-- Particles of the same shape at the same place, the second at least as bright. -/
def Brighter (q q' : Render.Particle ℚ) : Prop := q = { q' with amp := q.amp } ∧ q.amp ≤ q'.amp

/-- Brighter particles make no pixel darker. -/
theorem pixel_brighter {fl32 : ℚ → ℚ} {R : Generate.Rand ℚ} (he : ∀ t, 0 < R.exp t) {a : Args} (hmask : ∀ q, a.mask = some q → ∀ j i, q.2 j i = 0 ∨ q.2 j i = 1)
    (u n : ℚ) (r H W y x j i : Nat) (ps ps' : List (Render.Particle ℚ)) (hps : List.Forall₂ Brighter ps ps') : let w : ℚ := match a.mask with | none => 1 | some m => m.2 j i
    Render.addNoise u n a.spec.noiseUniform a.spec.noiseMean a.spec.noiseStd (Render.render R.exp fl32 r H W ps y x) * w ≤
      Render.addNoise u n a.spec.noiseUniform a.spec.noiseMean a.spec.noiseStd (Render.render R.exp fl32 r H W ps' y x) * w := by
  have hr : Render.render R.exp fl32 r H W ps y x ≤ Render.render R.exp fl32 r H W ps' y x := by
    rw [Render.render_eq, Render.render_eq]
    induction hps with
    | nil => exact le_rfl
    | cons h _ ih =>
      simp only [List.map_cons, List.sum_cons]
      refine add_le_add ?_ ih
      rw [h.1]
      exact Render.share_mono R.exp fl32 he r H W y x _ h.2
  have h := Generate.addNoise_mono u n a.spec.noiseUniform a.spec.noiseMean a.spec.noiseStd hr
  cases hq : a.mask with
  | none => simpa only [mul_one] using h
  | some q =>
    dsimp only
    rcases hmask q hq j i with e | e
    · rw [e]; simp only [mul_zero]; exact le_rfl
    · simpa only [e, mul_one] using h

/-- **C154.** With brighter `intensity_ranges` (as many, none with a smaller end), the sampler is accepted, no pixel of any image becomes darker, the reported range of brightness is the brighter
one, and nothing else changes: over every history of calls on every scheduler, for all draws of the distributions, any noise, with a mask or without, without histogram. -/
theorem C154_brighter (fl fl32 : ℚ → ℚ) (R : Generate.Rand ℚ) (hR : Generate.Lawful R) (he : ∀ t, 0 < R.exp t) (a : Args) (m : Made) (hm : make fl fl32 a = .ok m)
    (hh : a.histogram = none) (hmask : ∀ q, a.mask = some q → ∀ j i, q.2 j i = 0 ∨ q.2 j i = 1) (l : List (ℚ × ℚ)) (hl : ∀ q ∈ l, q.1 ≤ q.2)
    (hle : List.Forall₂ (fun q q' => q.1 ≤ q'.1 ∧ q.2 ≤ q'.2) a.spec.intensityRanges l) :
    make fl fl32 (withBrightness l a.spec.intensityVar a) = .ok m ∧
    AlwaysAlike (Pixels (· ≤ ·) (· ≤ ·) Eq (fun q q' => ∃ n : Nat, a.spec.intensityRanges[n]? = some q ∧ l[n]? = some q')) fl fl32 R a (withBrightness l a.spec.intensityVar a) m := by
  have hs := (make_ok hm).1
  unfold specOK at hs
  simp only [Bool.and_eq_true, decide_eq_true_eq, List.all_eq_true] at hs
  obtain ⟨⟨⟨⟨⟨⟨⟨h1, h2⟩, h3⟩, h4⟩, h5⟩, h6, h7, h8⟩, h9⟩, h10⟩ := hs
  have hne : a.spec.intensityRanges ≠ [] := List.length_pos_iff.1 h2
  have hok : BrightnessOK l := by
    refine ⟨fun e => ?_, fun q hq => ⟨?_, hl q hq⟩⟩
    · rw [e] at hle
      exact hne (List.forall₂_nil_right_iff.1 hle)
    · obtain ⟨n, hn, rfl⟩ := List.getElem_of_mem hq
      have hn' : n < a.spec.intensityRanges.length := hle.length_eq ▸ hn
      exact (h3 _ (List.getElem_mem hn')).1.trans_le (List.Forall₂.get hle hn' hn).1
  refine ⟨make_withBrightness hm hok h7, alwaysAlike rfl (fun k n i f => render_spec (a' := withBrightness l a.spec.intensityVar a) hh hh rfl ⟨⟨rfl, rfl, rfl⟩, rfl, rfl, rfl⟩ rfl rfl hle.length_eq.symm (fun _ _ _ => rfl) (fun n => ?_)
    (T₁ := Brighter) (T₂ := Brighter) (fun n bounds key i k => ?_) (fun n bounds flow resX resY key i k => ?_) (pixel_brighter he hmask) (pixel_brighter he hmask) k n i f)⟩
  · refine ⟨min n (a.spec.intensityRanges.length - 1), ?_, ?_⟩
    · unfold Generate.row
      rw [List.getD_eq_getElem?_getD, List.getElem?_eq_getElem (lt_of_le_of_lt (min_le_right _ _) (Nat.sub_lt h2 Nat.one_pos))]
      rfl
    · show l[min n (a.spec.intensityRanges.length - 1)]? = some (l.getD (min n (l.length - 1)) (0, 0))
      rw [← hle.length_eq, List.getD_eq_getElem?_getD,
        List.getElem?_eq_getElem (hle.length_eq ▸ lt_of_le_of_lt (min_le_right n _) (Nat.sub_lt h2 Nat.one_pos) : min n (a.spec.intensityRanges.length - 1) < l.length)]
      rfl
  · exact (Generate.particle_brighter fl32 R hR { params a m with batchSize := n } l hle hne bounds ⟨0, 0, fun _ _ => (0, 0)⟩ 0 0 key i k).1
  · exact (Generate.particle_brighter fl32 R hR { params a m with batchSize := n } l hle hne bounds flow resX resY key i k).2

/-- Particles `c` times as bright make every pixel `c` times as bright. -/
theorem pixel_scaled {fl32 : ℚ → ℚ} {R : Generate.Rand ℚ} {a : Args} (hmask : ∀ q, a.mask = some q → ∀ j i, q.2 j i = 0 ∨ q.2 j i = 1)
    (hn : a.spec.noiseUniform = 0 ∧ a.spec.noiseMean = 0 ∧ a.spec.noiseStd = 0) {c : ℚ} (hc : 1 ≤ c)
    (u v : ℚ) (r H W y x j i : Nat) (ps ps' : List (Render.Particle ℚ)) (hps : List.Forall₂ (fun q q' : Render.Particle ℚ => q' = { q with amp := c * q.amp }) ps ps') :
    let w : ℚ := match a.mask with | none => 1 | some m => m.2 j i
    Render.addNoise u v a.spec.noiseUniform a.spec.noiseMean a.spec.noiseStd (Render.render R.exp fl32 r H W ps' y x) * w =
      min (c * (Render.addNoise u v a.spec.noiseUniform a.spec.noiseMean a.spec.noiseStd (Render.render R.exp fl32 r H W ps y x) * w)) 255 := by
  have c0 : 0 < c := lt_of_lt_of_le one_pos hc
  have hr : Render.render R.exp fl32 r H W ps' y x = c * Render.render R.exp fl32 r H W ps y x := by
    rw [Render.render_eq, Render.render_eq]
    induction hps with
    | nil => simp
    | cons h _ ih =>
      simp only [List.map_cons, List.sum_cons]
      rw [ih, h, Generate.share_scale]
      ring
  have h : Render.addNoise u v a.spec.noiseUniform a.spec.noiseMean a.spec.noiseStd (Render.render R.exp fl32 r H W ps' y x) =
      min (c * Render.addNoise u v a.spec.noiseUniform a.spec.noiseMean a.spec.noiseStd (Render.render R.exp fl32 r H W ps y x)) 255 := by
    rw [hn.1, hn.2.1, hn.2.2, hr]
    generalize Render.render R.exp fl32 r H W ps y x = t
    simp only [Render.addNoise, sub_self, mul_zero, add_zero, max_self]
    rw [mul_min_of_nonneg _ _ c0.le, mul_max_of_nonneg _ _ c0.le, mul_zero, min_assoc, min_eq_right (by linarith : (255 : ℚ) ≤ c * 255)]
  cases hq : a.mask with
  | none => simpa only [mul_one] using h
  | some q =>
    dsimp only
    rcases hmask q hq j i with e | e
    · rw [e]; simp
    · simpa only [e, mul_one] using h

theorem render_scaled {fl fl32 : ℚ → ℚ} {R : Generate.Rand ℚ} {a : Args} {m : Made} (hh : a.histogram = none) (hmask : ∀ q, a.mask = some q → ∀ j i, q.2 j i = 0 ∨ q.2 j i = 1)
    (hn : a.spec.noiseUniform = 0 ∧ a.spec.noiseMean = 0 ∧ a.spec.noiseStd = 0) (c var : ℚ) (hc : 1 ≤ c) (hvar : R.sqrt var = c * R.sqrt a.spec.intensityVar)
    (k : KeyTerm) (n i : Nat) (f : Adapter.Field2 ℚ) :
    Pixels (fun v v' => v' = min (c * v) 255) (fun v v' => v' = min (c * v) 255) Eq (fun q q' => q' = (c * q.1, c * q.2)) (render fl fl32 R a m k n i f)
      (render fl fl32 R (withBrightness (a.spec.intensityRanges.map (fun q => (c * q.1, c * q.2))) var a) m k n i f) := by
  have c0 : 0 < c := lt_of_lt_of_le one_pos hc
  generalize hl : a.spec.intensityRanges.map (fun q => (c * q.1, c * q.2)) = l
  have hlen : l.length = a.spec.intensityRanges.length := by rw [← hl, List.length_map]
  refine render_spec (a' := withBrightness l var a) hh hh rfl ⟨⟨rfl, rfl, rfl⟩, rfl, rfl, rfl⟩ rfl rfl hlen (fun _ _ _ => rfl)
    (fun n => ?_) (T₁ := fun q q' => q' = { q with amp := c * q.amp }) (T₂ := fun q q' => q' = { q with amp := c * q.amp }) (fun n bounds key i k => ?_)
    (fun n bounds flow resX resY key i k => ?_) (pixel_scaled hmask hn hc) (pixel_scaled hmask hn hc) k n i f
  · subst hl
    exact Generate.row_scale c _ _
  · subst hl
    exact (Generate.particle_scale fl32 R { params a m with batchSize := n } c var c0.le hvar bounds ⟨0, 0, fun _ _ => (0, 0)⟩ 0 0 key i k).1
  · subst hl
    exact (Generate.particle_scale fl32 R { params a m with batchSize := n } c var c0.le hvar bounds flow resX resY key i k).2

/-- **C154.** With all `intensity_ranges` multiplied by `c`, at least 1, the standard deviation of the brightness as well, and without noise, every pixel is multiplied by `c`, but for those that
would exceed 255, which are 255; nothing else changes but the reported range, which is multiplied by `c`. -/
theorem C154_scaled (fl fl32 : ℚ → ℚ) (R : Generate.Rand ℚ) (a : Args) (m : Made) (hm : make fl fl32 a = .ok m) (hh : a.histogram = none)
    (hmask : ∀ q, a.mask = some q → ∀ j i, q.2 j i = 0 ∨ q.2 j i = 1) (hn : a.spec.noiseUniform = 0 ∧ a.spec.noiseMean = 0 ∧ a.spec.noiseStd = 0) (c var : ℚ) (hc : 1 ≤ c) (hv : 0 ≤ var)
    (hvar : R.sqrt var = c * R.sqrt a.spec.intensityVar) :
    make fl fl32 (withBrightness (a.spec.intensityRanges.map (fun q => (c * q.1, c * q.2))) var a) = .ok m ∧
    AlwaysAlike (Pixels (fun v v' => v' = min (c * v) 255) (fun v v' => v' = min (c * v) 255) Eq (fun q q' => q' = (c * q.1, c * q.2))) fl fl32 R a
      (withBrightness (a.spec.intensityRanges.map (fun q => (c * q.1, c * q.2))) var a) m := by
  have hs := (make_ok hm).1
  unfold specOK at hs
  simp only [Bool.and_eq_true, decide_eq_true_eq, List.all_eq_true] at hs
  obtain ⟨⟨⟨⟨⟨⟨⟨h1, h2⟩, h3⟩, h4⟩, h5⟩, h6, h7, h8⟩, h9⟩, h10⟩ := hs
  have c0 : 0 < c := lt_of_lt_of_le one_pos hc
  have hok : BrightnessOK (a.spec.intensityRanges.map (fun q => (c * q.1, c * q.2))) := by
    refine ⟨fun e => ?_, fun q hq => ?_⟩
    · exact List.length_pos_iff.1 h2 (List.map_eq_nil_iff.1 e)
    · obtain ⟨q, hq', rfl⟩ := List.mem_map.1 hq
      exact ⟨mul_pos c0 (h3 q hq').1, mul_le_mul_of_nonneg_left (h3 q hq').2 c0.le⟩
  exact ⟨make_withBrightness hm hok hv, alwaysAlike rfl (render_scaled hh hmask hn c var hc hvar)⟩

/-! ## Examples -/

/-- Two pixels of the first image, two of the second, and the reported range of brightness, of the first pair of one call. -/
def pixelsOf (a : Args) : Option (List (List (List ℚ × List ℚ × (ℚ × ℚ)))) :=
  (Sampler.run (always ⟨20, 20, fun _ _ => (2, 0)⟩) (gen id id demoDraws a demoShiftMade) demoShiftMade.cfg [.next] (Sampler.init demoShiftMade.cfg ())).map
    (fun q => q.1.map (fun o => match o with
      | .batch x => (x.images.take 1).map (fun p : Pair => ([p.first.at_ 1 0, p.first.at_ 2 1], [p.second.at_ 1 2, p.second.at_ 0 0], p.intensityRange))
      | _ => []))

/-- The hypotheses are met. -/
example : make id id demoShift = .ok demoShiftMade ∧ Generate.Lawful demoDraws ∧ (∀ t, 0 < demoDraws.exp t) ∧ (∀ k n, |demoDraws.normal k n| ≤ 1) ∧
    demoShift.mask = none ∧ demoShift.histogram = none ∧ demoShift.spec.noiseUniform ≤ 8 ∧ demoShift.spec.noiseMean ≤ 1 ∧
    List.Forall₂ (fun q q' => q.1 ≤ q'.1 ∧ q.2 ≤ q'.2) demoShift.spec.intensityRanges [(60, 200)] ∧ demoDraws.sqrt 0 = 3 / 2 * demoDraws.sqrt demoShift.spec.intensityVar := by
  refine ⟨by decide +kernel, fun k n => ?_, Render.expLike_toy.1, fun k n => ?_, rfl, rfl, by decide +kernel, by decide +kernel,
    .cons ⟨by decide +kernel, by decide +kernel⟩ .nil, by decide +kernel⟩
  · simp only [demoDraws]
    split <;> norm_num
  · show |((n % 3 : Nat) : ℚ) - 1| ≤ 1
    have : n % 3 = 0 ∨ n % 3 = 1 ∨ n % 3 = 2 := by omega
    rcases this with e | e | e <;> rw [e] <;> norm_num

/-- Without noise; with uniform noise of up to 8 and mean 1; and with standard deviation 2 as well. The second pixel of the second image, black without noise, gets 3/8 of 8 and 1. -/
example : pixelsOf demoShift = some [[([714093065 / 23707644, 170469775 / 836772], [714093065 / 23707644, 0], 50, 200)]] ∧
    pixelsOf (withNoise 8 1 0 demoShift) = some [[([785215997 / 23707644, 172980091 / 836772], [785215997 / 23707644, 4], 50, 200)]] ∧
    pixelsOf (withNoise 8 1 2 demoShift) = some [[([832631285 / 23707644, 174653635 / 836772], [785215997 / 23707644, 2], 50, 200)]] :=
  ⟨by decide +kernel, by decide +kernel, by decide +kernel⟩

/-- Brighter particles, and particles one and a half times as bright: one pixel is white then. -/
example : pixelsOf (withBrightness [(60, 200)] 0 demoShift) = some [[([381177505 / 11853822, 91045175 / 418386], [381177505 / 11853822, 0], 60, 200)]] ∧
    pixelsOf (withBrightness (demoShift.spec.intensityRanges.map (fun q => (3 / 2 * q.1, 3 / 2 * q.2))) 0 demoShift) =
      some [[([714093065 / 15805096, 255], [714093065 / 15805096, 0], 75, 300)]] :=
  ⟨by decide +kernel, by decide +kernel⟩

end Verif.Synthetic
