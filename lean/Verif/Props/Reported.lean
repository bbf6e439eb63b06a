import Verif.Spec.Reported
import Verif.Props.Density
/-!
# The reported parameters determine the image pair (C182)
-/

namespace Verif.Reported
open Verif Compare Synthetic

theorem foldl_max (l : List ℚ) (x d : ℚ) (h1 : x = d ∨ d ∈ l) (h2 : x ≤ d) (h3 : ∀ y ∈ l, y ≤ d) : l.foldl max x = d := by
  induction l generalizing x with
  | nil => simpa using h1
  | cons y t ih =>
    have hy := h3 y (by simp)
    refine ih (max x y) ?_ (max_le h2 hy) (fun z hz => h3 z (by simp [hz]))
    rcases h1 with h | h
    · exact .inl (by rw [h]; exact max_eq_left hy)
    · rcases List.mem_cons.1 h with h | h
      · exact .inl (by rw [← h]; exact max_eq_right h2)
      · exact .inr h

theorem maxDiameter_eq {p : Generate.Params ℚ} {d : ℚ} (h : Greatest d p.diameterRanges) : Generate.maxDiameter p = d := by
  obtain ⟨⟨r, hr, rfl⟩, h2⟩ := h
  unfold Generate.maxDiameter
  have hm : r.2 ∈ p.diameterRanges.map Prod.snd := List.mem_map_of_mem hr
  refine foldl_max _ _ _ (.inr hm) ?_ (fun y hy => ?_)
  · cases hd : p.diameterRanges with
    | nil => rw [hd] at hr; cases hr
    | cons q t => exact h2 q (by rw [hd]; simp)
  · obtain ⟨q, hq, rfl⟩ := List.mem_map.1 hy
    exact h2 q hq

/-- Equal parameters but for the ranges, equal draws of them: equal pairs. -/
theorem render_eq {fl fl32 : ℚ → ℚ} {R : Generate.Rand ℚ} {a : Args} {m : Made} {lo : ℚ} {ds is rs : List (ℚ × ℚ)}
    (hmax : Generate.maxDiameter (withRanges lo ds is rs a).spec = Generate.maxDiameter a.spec) (k : KeyTerm) (n i : Nat) (f : Adapter.Field2 ℚ)
    (h : SameReport (render fl fl32 R a m k n i f) (render fl fl32 R (withRanges lo ds is rs a) m k n i f)) :
    render fl fl32 R (withRanges lo ds is rs a) m k n i f = render fl fl32 R a m k n i f := by
  obtain ⟨h1, h2, h3, h4⟩ := h
  set a' := withRanges lo ds is rs a with ha'
  set p : Generate.Params ℚ := { params a m with batchSize := n } with hp
  set p' : Generate.Params ℚ := { params a' m with batchSize := n } with hp'
  have d1 : Generate.density fl32 R p' k i = Generate.density fl32 R p k i := h1
  have d2 : Generate.row p'.diameterRanges (Generate.rangeIdx R p' k i).1 = Generate.row p.diameterRanges (Generate.rangeIdx R p k i).1 := h2
  have d3 : Generate.row p'.intensityRanges (Generate.rangeIdx R p' k i).2.1 = Generate.row p.intensityRanges (Generate.rangeIdx R p k i).2.1 := h3
  have d4 : Generate.row p'.rhoRanges (Generate.rangeIdx R p' k i).2.2 = Generate.row p.rhoRanges (Generate.rangeIdx R p k i).2.2 := h4
  have q1 : ∀ bounds j, Generate.particle1 fl32 R p' bounds k i j = Generate.particle1 fl32 R p bounds k i j := by
    intro bounds j
    unfold Generate.particle1
    dsimp only
    rw [d1, d2, d3, d4]
    rfl
  have q2 : ∀ bounds flow rx ry j, Generate.particle2 fl32 R p' bounds flow rx ry k i j = Generate.particle2 fl32 R p bounds flow rx ry k i j := by
    intro bounds flow rx ry j
    unfold Generate.particle2
    dsimp only
    rw [d1, d2, d3, d4, q1]
    rfl
  have hx : Generate.maxDiameter p' = Generate.maxDiameter p := hmax
  have q3 : ∀ bounds mask hist key ps, Generate.finish fl32 R p' bounds mask hist key ps = Generate.finish fl32 R p bounds mask hist key ps := by
    intro bounds mask hist key ps
    unfold Generate.finish
    dsimp only
    rw [hx]
    rfl
  have q4 : ∀ bounds, Generate.numParticles fl p' (bounds := bounds) = Generate.numParticles fl p (bounds := bounds) := fun _ => rfl
  have e1 : (render fl fl32 R a' m k n i f).first = (render fl fl32 R a m k n i f).first := by
    show (Generate.finish fl32 R p' _ _ _ _ ((List.range _).map (Generate.particle1 fl32 R p' _ k i))) =
      (Generate.finish fl32 R p _ _ _ _ ((List.range _).map (Generate.particle1 fl32 R p _ k i)))
    rw [q3, funext (q1 _)]
    rfl
  have e2 : (render fl fl32 R a' m k n i f).second = (render fl fl32 R a m k n i f).second := by
    show (Generate.finish fl32 R p' _ _ _ _ ((List.range _).map (Generate.particle2 fl32 R p' _ _ _ _ k i))) =
      (Generate.finish fl32 R p _ _ _ _ ((List.range _).map (Generate.particle2 fl32 R p _ _ _ _ k i)))
    rw [q3, funext (q2 _ _ _ _)]
    rfl
  revert e1 e2 h1 h2 h3 h4
  generalize render fl fl32 R a' m k n i f = x
  generalize render fl fl32 R a m k n i f = y
  intro h1 h2 h3 h4 e1 e2
  cases x; cases y
  simp_all

theorem specOK_ranges {p : Generate.Params ℚ} {o : ℚ × ℚ} (h : specOK p o = true) : p.densityRange.1 ≤ p.densityRange.2 ∧
    (∀ r ∈ p.diameterRanges, 0 < r.1 ∧ r.1 ≤ r.2) ∧ (∀ r ∈ p.intensityRanges, 0 < r.1 ∧ r.1 ≤ r.2) ∧ ∀ r ∈ p.rhoRanges, -1 < r.1 ∧ r.1 ≤ r.2 ∧ r.2 < 1 := by
  unfold specOK at h
  simp only [Bool.and_eq_true, decide_eq_true_eq, List.all_eq_true] at h
  obtain ⟨⟨⟨⟨⟨⟨⟨⟨⟨⟨h1, h2⟩, h3⟩, h4⟩, h5⟩, h6⟩, h7⟩, h8⟩, h9⟩, h10⟩, h11⟩ := h
  exact ⟨h2, h4, h6, h8⟩

theorem geometry_eq {a : Args} {lo : ℚ} {ds is rs : List (ℚ × ℚ)} (hmax : Generate.maxDiameter (withRanges lo ds is rs a).spec = Generate.maxDiameter a.spec)
    (hv : 0 < a.spec.pHide1 ∨ 0 < a.spec.pHide2 ∨ (lo = a.spec.densityRange.2 ↔ a.spec.densityRange.1 = a.spec.densityRange.2)) :
    (withRanges lo ds is rs a).geometry = a.geometry := by
  have e : Synthetic.hidden (withRanges lo ds is rs a).spec = Synthetic.hidden a.spec := by
    unfold Synthetic.hidden
    rcases hv with h | h | h
    · show (decide (0 < a.spec.pHide1) || _ || _) = _
      simp [h]
    · show (_ || decide (0 < a.spec.pHide2) || _) = _
      simp [h]
    · show (_ || _ || decide (lo ≠ a.spec.densityRange.2)) = _
      simp [h]
      rfl
  unfold Args.geometry
  rw [e, hmax]
  rfl

theorem make_eq {fl fl32 : ℚ → ℚ} {a a' : Args} {m : Made} {lo : ℚ} {ds is rs : List (ℚ × ℚ)} (ha : a' = withRanges lo ds is rs a)
    (hm : make fl fl32 a = .ok m) (hok : specOK a'.spec a'.imgOffset = true) (hg : a'.geometry = a.geometry) : make fl fl32 a' = .ok m := by
  have hs := (make_ok hm).1
  rw [← hm]
  unfold make
  rw [hok, hs, hg]
  subst ha
  rfl

/-- **C182, as far as the greatest diameter is the same.** Take two synthetic samplers that can be built and differ only in the ranges they choose from, with the same highest density and the
same greatest diameter (and, unless particles may be hidden, both or neither with a single density). Over every history of calls on every scheduler, for all draws and any rounding, with or
without mask, histogram and noise: the two samplers fail, end, and report flow fields, masks and files alike, and wherever they report the same density and ranges for an image pair, the
two image pairs are the same. The missing part is refuted by `C182_refuted`. -/
theorem C182_determined_partial (fl fl32 : ℚ → ℚ) (R : Generate.Rand ℚ) (a : Args) (lo : ℚ) (ds is rs : List (ℚ × ℚ)) (m m' : Made)
    (hm : make fl fl32 a = .ok m) (hm' : make fl fl32 (withRanges lo ds is rs a) = .ok m') (d : ℚ) (hd : Greatest d a.spec.diameterRanges) (hd' : Greatest d ds)
    (hv : 0 < a.spec.pHide1 ∨ 0 < a.spec.pHide2 ∨ (lo = a.spec.densityRange.2 ↔ a.spec.densityRange.1 = a.spec.densityRange.2)) :
    m' = m ∧ AlwaysAlike (fun p p' => SameReport p p' → p' = p) fl fl32 R a (withRanges lo ds is rs a) m := by
  have hmax : Generate.maxDiameter (withRanges lo ds is rs a).spec = Generate.maxDiameter a.spec := by
    rw [maxDiameter_eq hd, maxDiameter_eq (p := (withRanges lo ds is rs a).spec) hd']
  have hg := geometry_eq (lo := lo) (is := is) (rs := rs) hmax hv
  refine ⟨?_, alwaysAlike hg (fun k n i f h => render_eq hmax k n i f h)⟩
  have := make_eq rfl hm (make_ok hm').1 hg
  rw [hm'] at this
  injection this

/-- A sampler with one range of each kind to choose from reports these. -/
theorem report_alone {fl fl32 : ℚ → ℚ} {R : Generate.Rand ℚ} {a : Args} {m : Made} {d i r : ℚ × ℚ} (k : KeyTerm) (n j : Nat) (f : Adapter.Field2 ℚ) :
    let p' := render fl fl32 R (withRanges a.spec.densityRange.1 [d] [i] [r] a) m k n j f
    p'.density = (render fl fl32 R a m k n j f).density ∧ p'.diameterRange = d ∧ p'.intensityRange = i ∧ p'.rhoRange = r := by
  refine ⟨rfl, ?_, ?_, ?_⟩
  · show Generate.row [d] _ = d
    simp [Generate.row]
  · show Generate.row [i] _ = i
    simp [Generate.row]
  · show Generate.row [r] _ = r
    simp [Generate.row]

/-- **C182, for one range of each kind.** Let a range of diameters that reaches the greatest diameter, a range of intensities and a range of correlations be given, all from the lists
of a synthetic sampler that can be built. The sampler with only these ranges can be built too. Over every history of calls on every scheduler it does the same as the first, and every image
pair for which the first reports these ranges is the image pair of the second at the same place. -/
theorem C182_alone_partial (fl fl32 : ℚ → ℚ) (R : Generate.Rand ℚ) (a : Args) (m : Made) (hm : make fl fl32 a = .ok m) (d i r : ℚ × ℚ)
    (hd : d ∈ a.spec.diameterRanges) (hg : ∀ q ∈ a.spec.diameterRanges, q.2 ≤ d.2) (hi : i ∈ a.spec.intensityRanges) (hr : r ∈ a.spec.rhoRanges) :
    let a' := withRanges a.spec.densityRange.1 [d] [i] [r] a
    make fl fl32 a' = .ok m ∧
    AlwaysAlike (fun p p' => p.diameterRange = d → p.intensityRange = i → p.rhoRange = r → p' = p) fl fl32 R a a' m := by
  intro a'
  have hs := (make_ok hm).1
  obtain ⟨r0, r1, r2, r3⟩ := specOK_ranges hs
  have hok : specOK a'.spec a'.imgOffset = true := by
    unfold specOK at hs ⊢
    simp only [Bool.and_eq_true, decide_eq_true_eq, List.all_eq_true] at hs ⊢
    obtain ⟨⟨⟨⟨⟨⟨⟨⟨⟨⟨h1, h2⟩, h3⟩, h4⟩, h5⟩, h6⟩, h7⟩, h8⟩, h9⟩, h10⟩, h11⟩ := hs
    refine ⟨⟨⟨⟨⟨⟨⟨⟨⟨⟨h1, h2⟩, Nat.one_pos⟩, ?_⟩, Nat.one_pos⟩, ?_⟩, Nat.one_pos⟩, ?_⟩, h9⟩, h10⟩, h11⟩
    · intro q hq; rw [List.mem_singleton.1 hq]; exact r1 d hd
    · intro q hq; rw [List.mem_singleton.1 hq]; exact r2 i hi
    · intro q hq; rw [List.mem_singleton.1 hq]; exact r3 r hr
  have hmax : Generate.maxDiameter a'.spec = Generate.maxDiameter a.spec := by
    rw [maxDiameter_eq (d := d.2) ⟨⟨d, hd, rfl⟩, hg⟩]
    exact maxDiameter_eq (p := a'.spec) ⟨⟨d, List.mem_singleton.2 rfl, rfl⟩, fun q hq => by rw [List.mem_singleton.1 hq]⟩
  have hgeo : a'.geometry = a.geometry := geometry_eq hmax (.inr (.inr Iff.rfl))
  refine ⟨make_eq rfl hm hok hgeo, alwaysAlike hgeo (fun k n j f h1 h2 h3 => render_eq hmax k n j f ?_)⟩
  obtain ⟨e0, e1, e2, e3⟩ := report_alone (fl := fl) (fl32 := fl32) (R := R) (a := a) (m := m) (d := d) (i := i) (r := r) k n j f
  exact ⟨e0, e1.trans h1.symm, e2.trans h2.symm, e3.trans h3.symm⟩

/-- A sampler with a single density, of which nothing is hidden. -/
def plainArgs : Args := withRanges (1 / 25) [(1 / 2, 1)] [(50, 200)] [(-1 / 2, 1 / 2)] demoShift

/-- What the constructor makes of it. -/
def plainMade : Made := (make id id plainArgs).toOption.getD demoShiftMade

/-- **The rest of C182 fails.** With another range of diameters on the list, which is not chosen, the same reported parameters belong to another image: both samplers can be built, with the same
geometry, and the same call reports the same density and ranges, but another value of a pixel of the first image. -/
theorem C182_refuted : ∃ (R : Generate.Rand ℚ) (a : Args) (m : Made) (ds : List (ℚ × ℚ)) (k : KeyTerm) (f : Adapter.Field2 ℚ),
    let a' := withRanges a.spec.densityRange.1 ds a.spec.intensityRanges a.spec.rhoRanges a
    Generate.Lawful R ∧ make id id a = .ok m ∧ make id id a' = .ok m ∧ a.spec.diameterRanges <+: ds ∧
    SameReport (render id id R a m k 1 0 f) (render id id R a' m k 1 0 f) ∧
    (render id id R a' m k 1 0 f).first.at_ 0 0 ≠ (render id id R a m k 1 0 f).first.at_ 0 0 := by
  refine ⟨demoDraws, plainArgs, plainMade, [(1 / 2, 1), (1, 4 / 3)], .seed 0, ⟨20, 20, fun _ _ => (2, 0)⟩, ?_, by decide +kernel, by decide +kernel, by decide +kernel,
    ⟨by decide +kernel, by decide +kernel, by decide +kernel, by decide +kernel⟩, by decide +kernel⟩
  intro k n
  show 0 ≤ (if n % 2 = 0 then 3 / 8 else 1 / 4 : ℚ) ∧ (if n % 2 = 0 then 3 / 8 else 1 / 4 : ℚ) < 1
  split <;> norm_num

/-! ## An example -/

/-- Draws under which the image pairs of a batch take the ranges in turn. -/
def turnDraws : Generate.Rand ℚ := { demoDraws with randint := fun k n => match k with | .sub (.fold _ i) _ _ => i % n | _ => 0 }

/-- A sampler with two ranges of diameters and two of intensities. -/
def turnArgs : Args := withRanges (1 / 50) [(1 / 2, 1), (3 / 4, 1)] [(50, 200), (10, 20)] [(-1 / 2, 1 / 2)] demoShift

/-- What a call shows of each image pair: the reported ranges of diameters and intensities, and a pixel. -/
def turnShown (a : Args) : Option (List (List ((ℚ × ℚ) × (ℚ × ℚ) × ℚ))) :=
  (Sampler.run (always ⟨20, 20, fun _ _ => (2, 0)⟩) (gen id id turnDraws a demoShiftMade) demoShiftMade.cfg [.next] (Sampler.init demoShiftMade.cfg ())).map
    (fun q => q.1.map (fun o => match o with
      | .batch x => x.images.map (fun p : Pair => (p.diameterRange, p.intensityRange, p.first.at_ 2 1))
      | _ => []))

/-- The first image pair is that of the sampler with the first ranges alone, the second is not. -/
example : make id id turnArgs = .ok demoShiftMade ∧ make id id (withRanges (1 / 50) [(1 / 2, 1)] [(50, 200)] [(-1 / 2, 1 / 2)] turnArgs) = .ok demoShiftMade ∧
    turnShown turnArgs = some [[((1 / 2, 1), (50, 200), 170469775 / 836772), ((3 / 4, 1), (10, 20), 5759490123 / 201065638)]] ∧
    turnShown (withRanges (1 / 50) [(1 / 2, 1)] [(50, 200)] [(-1 / 2, 1 / 2)] turnArgs) = some [[((1 / 2, 1), (50, 200), 170469775 / 836772), ((1 / 2, 1), (50, 200), 66696175 / 418386)]] :=
  ⟨by decide +kernel, by decide +kernel, by decide +kernel, by decide +kernel⟩

end Verif.Reported
