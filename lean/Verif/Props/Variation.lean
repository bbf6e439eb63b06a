import Verif.Spec.Variation
import Verif.Props.Noise
/-!
# The variation of the particles between the images of a pair (C188)
-/

namespace Verif.Variation
variable {K : Type*} [Field K] [LinearOrder K] [IsStrictOrderedRing K]

theorem sq_inj {s t : K} (hs : 0 ≤ s) (ht : 0 ≤ t) (h : s * s = t * t) : s = t := (mul_self_inj hs ht).1 h

theorem sq_le {s t : K} (ht : 0 ≤ t) (h : s * s ≤ t * t) : s ≤ t := by
  by_contra hc
  push Not at hc
  nlinarith

theorem clip_closest (x : K) {lo hi : K} (h : lo ≤ hi) : ∀ w, lo ≤ w → w ≤ hi → |min (max x lo) hi - x| ≤ |w - x| := by
  intro w hw hw'
  rcases le_total x lo with h1 | h1
  · rw [max_eq_right h1, min_eq_left h, abs_of_nonneg (by linarith), abs_of_nonneg (by linarith)]
    linarith
  · rw [max_eq_left h1]
    rcases le_total x hi with h2 | h2
    · rw [min_eq_left h2, sub_self, abs_zero]
      exact abs_nonneg _
    · rw [min_eq_right h2, abs_of_nonpos (by linarith), abs_of_nonpos (by linarith)]
      linarith

/-- The closest value is unique. -/
theorem clipped_eq {lo hi v n var v' s : K} (hs : 0 ≤ s) (hv : s * s = var) (h : Clipped lo hi v n var v') (hle : lo ≤ hi) : v' = min (max (v + n * s) lo) hi := by
  obtain ⟨t, t0, t1, a, b, c⟩ := h
  obtain rfl : t = s := sq_inj t0 hs (t1.trans hv.symm)
  have c1 := c _ (le_min (le_max_right (v + n * t) lo) hle) (min_le_right _ _)
  rcases le_total (v + n * t) lo with h1 | h1
  · rw [max_eq_right h1, min_eq_left hle] at c1 ⊢
    rw [abs_of_nonneg (by linarith), abs_of_nonneg (by linarith)] at c1
    exact le_antisymm (by linarith) a
  · rw [max_eq_left h1] at c1 ⊢
    rcases le_total (v + n * t) hi with h2 | h2
    · rw [min_eq_left h2] at c1 ⊢
      rw [sub_self, abs_zero] at c1
      exact sub_eq_zero.1 (abs_eq_zero.1 (le_antisymm c1 (abs_nonneg _)))
    · rw [min_eq_right h2] at c1 ⊢
      rw [abs_of_nonpos (by linarith), abs_of_nonpos (by linarith)] at c1
      exact le_antisymm b (by linarith)

/-- What follows for the change of a property that is in its range: it has the direction of the draw, is at most the documented one, and is none without variance. -/
theorem clipped_change {lo hi v n var v' : K} (h : Clipped lo hi v n var v') (h0 : lo ≤ v) (h1 : v ≤ hi) :
    0 ≤ (v' - v) * n ∧ (v' - v) * (v' - v) ≤ n * n * var ∧ (var = 0 → v' = v) := by
  obtain ⟨s, s0, s1, -⟩ := id h
  have e := clipped_eq s0 s1 h (h0.trans h1)
  have key : (0 ≤ n * s → 0 ≤ v' - v ∧ v' - v ≤ n * s) ∧ (n * s ≤ 0 → v' - v ≤ 0 ∧ n * s ≤ v' - v) := by
    rw [e]
    constructor <;> intro hn
    · have : v ≤ min (max (v + n * s) lo) hi := le_min (le_max_of_le_left (by linarith)) h1
      have : min (max (v + n * s) lo) hi ≤ v + n * s := (min_le_left _ _).trans (max_le le_rfl (by linarith))
      constructor <;> linarith
    · have : min (max (v + n * s) lo) hi ≤ v := (min_le_left _ _).trans (max_le (by linarith) h0)
      have : v + n * s ≤ min (max (v + n * s) lo) hi := le_min (le_max_left _ _) (by linarith)
      constructor <;> linarith
  have e2 : n * n * var = (n * s) * (n * s) := by rw [← s1]; ring
  refine ⟨?_, ?_, fun hv => ?_⟩
  · rcases le_total 0 n with hn | hn
    · exact mul_nonneg (key.1 (mul_nonneg hn s0)).1 hn
    · exact mul_nonneg_of_nonpos_of_nonpos (key.2 (mul_nonpos_of_nonpos_of_nonneg hn s0)).1 hn
  · rw [e2]
    rcases le_total 0 (n * s) with hn | hn
    · exact mul_self_le_mul_self (key.1 hn).1 (key.1 hn).2
    · have := key.2 hn
      nlinarith
  · have s2 : s = 0 := mul_self_eq_zero.1 (s1.trans hv)
    rw [s2, mul_zero] at key
    have := key.1 le_rfl
    linarith

/-- The clipped change is the documented one exactly if that stays in the range. -/
theorem clipped_iff {lo hi v n var v' : K} (h : Clipped lo hi v n var v') :
    Documented v n var v' ↔ ∀ w, Documented v n var w → lo ≤ w ∧ w ≤ hi := by
  obtain ⟨s, s0, s1, a, b, c⟩ := h
  constructor
  · rintro ⟨t, t0, t1, rfl⟩ w ⟨u, u0, u1, rfl⟩
    obtain rfl : t = u := sq_inj t0 u0 (t1.trans u1.symm)
    exact ⟨a, b⟩
  · intro hw
    obtain ⟨w0, w1⟩ := hw _ ⟨s, s0, s1, rfl⟩
    have := c _ w0 w1
    rw [sub_self, abs_zero] at this
    exact ⟨s, s0, s1, sub_eq_zero.1 (abs_eq_zero.1 (le_antisymm this (abs_nonneg _)))⟩

/-- With the same draw, a greater variance means no smaller change, in the same direction. -/
theorem clipped_mono {lo hi v n var var' v' v'' : K} (h : Clipped lo hi v n var v') (h' : Clipped lo hi v n var' v'') (h0 : lo ≤ v) (h1 : v ≤ hi) (hv : var ≤ var') :
    |v' - v| ≤ |v'' - v| ∧ 0 ≤ (v' - v) * (v'' - v) := by
  obtain ⟨s, s0, s1, -⟩ := id h
  obtain ⟨t, t0, t1, -⟩ := id h'
  have hst : s ≤ t := sq_le t0 (by rw [s1, t1]; exact hv)
  have e := clipped_eq s0 s1 h (h0.trans h1)
  have e' := clipped_eq t0 t1 h' (h0.trans h1)
  rcases le_total 0 n with hn | hn
  · have hns := mul_nonneg hn s0
    have hnt := mul_le_mul_of_nonneg_left hst hn
    have p1 : v ≤ v' := by rw [e]; exact le_min (le_max_of_le_left (by linarith)) h1
    have p2 : v' ≤ v'' := by rw [e, e']; exact min_le_min_right _ (max_le_max_right _ (by linarith))
    exact ⟨by rw [abs_of_nonneg (by linarith), abs_of_nonneg (by linarith)]; linarith, mul_nonneg (by linarith) (by linarith)⟩
  · have hns := mul_nonpos_of_nonpos_of_nonneg hn s0
    have hnt := mul_le_mul_of_nonpos_left hst hn
    have p1 : v' ≤ v := by rw [e]; exact (min_le_left _ _).trans (max_le (by linarith) h0)
    have p2 : v'' ≤ v' := by rw [e, e']; exact min_le_min_right _ (max_le_max_right _ (by linarith))
    exact ⟨by rw [abs_of_nonpos (by linarith), abs_of_nonpos (by linarith)]; linarith, mul_nonneg_of_nonpos_of_nonpos (by linarith) (by linarith)⟩

omit [IsStrictOrderedRing K] in
/-- Without room there is no change at all. -/
theorem clipped_single {lo v n var v' : K} (h : Clipped lo lo v n var v') : v' = lo := by
  obtain ⟨s, -, -, a, b, -⟩ := h
  exact le_antisymm b a

end Verif.Variation

namespace Verif.Generate
open Verif Render Variation
variable {K : Type*} [Field K] [LinearOrder K] [IsStrictOrderedRing K] [FloorRing K]

theorem clip_clipped {R : Rand K} {lo hi v n var : K} (h : lo ≤ hi) (hs : 0 ≤ R.sqrt var) (hv : R.sqrt var * R.sqrt var = var) :
    Clipped lo hi v n var (clip (v + n * R.sqrt var) lo hi) :=
  ⟨_, hs, hv, (clip_mem h).1, (clip_mem h).2, clip_closest _ h⟩

/-- A square root. -/
def Root (R : Rand K) (v : K) : Prop := 0 ≤ R.sqrt v ∧ R.sqrt v * R.sqrt v = v

/-- **C188** (partial). For every generator of random numbers and every key there are normal draws, four for every particle of every pair, all made with different keys, such that for every
specification and flow: both images are drawn of equally many particles, and from the first to the second the two diameters, the correlation and (if the particle is shown in both) the brightness of
particle `k` change by its draws times the standard deviation, clipped to the range reported for the pair. Before the change they are in the range. -/
theorem C188_particles_partial (R : Rand K) (hR : Lawful R) (key : KeyTerm) :
    ∃ source : Nat → Fin 4 → KeyTerm, (∀ i i' j j', source i j = source i' j' → i = i' ∧ j = j') ∧
    ∀ (fl64 fl32 : K → K) (p : Params K) (bounds : Nat × Nat) (flows : List (Adapter.Field2 K)) (resX resY : K) (mask : Option (Nat → Nat → K))
      (histogram : Option (Nat → K)) (i : Nat) (img1 img2 : Img K) (d int rho : K × K),
      Ranges p.diameterRanges → Ranges p.intensityRanges → Ranges p.rhoRanges → Root R p.diameterVar → Root R p.intensityVar → Root R p.rhoVar →
      let out := generate fl64 fl32 R p bounds flows resX resY mask histogram key
      out.images1[i]? = some img1 → out.images2[i]? = some img2 →
      out.diameterRanges[i]? = some d → out.intensityRanges[i]? = some int → out.rhoRanges[i]? = some rho →
      ∃ ps1 ps2 : List (Particle K), ∃ noise1 noise2 : KeyTerm,
        img1 = finish fl32 R p bounds mask histogram noise1 ps1 ∧ img2 = finish fl32 R p bounds mask histogram noise2 ps2 ∧ ps1.length = ps2.length ∧
        ∀ (k : Nat) (q q' : Particle K), ps1[k]? = some q → ps2[k]? = some q' →
          ((d.1 ≤ q.dx ∧ q.dx ≤ d.2) ∧ Clipped d.1 d.2 q.dx (R.normal (source i 0) k) p.diameterVar q'.dx) ∧
          ((d.1 ≤ q.dy ∧ q.dy ≤ d.2) ∧ Clipped d.1 d.2 q.dy (R.normal (source i 1) k) p.diameterVar q'.dy) ∧
          ((rho.1 ≤ q.rho ∧ q.rho ≤ rho.2) ∧ Clipped rho.1 rho.2 q.rho (R.normal (source i 2) k) p.rhoVar q'.rho) ∧
          (q.amp ≠ 0 → q'.amp ≠ 0 → (int.1 ≤ q.amp ∧ q.amp ≤ int.2) ∧ Clipped int.1 int.2 q.amp (R.normal (source i 3) k) p.intensityVar q'.amp) := by
  refine ⟨fun i j => propKey key i (4 + j), fun i i' j j' h => ?_, ?_⟩
  · simp only [propKey, subkey, KeyTerm.sub.injEq, KeyTerm.fold.injEq] at h
    refine ⟨h.1.1.2, Fin.ext ?_⟩
    omega
  · intro fl64 fl32 p bounds flows resX resY mask histogram i img1 img2 d int rho hd hint hrho rd rint rrho out h1 h2 h3 h4 h5
    have g1 := (generate_get (fl64 := fl64) (fl32 := fl32) (R := R) (p := p) (bounds := bounds) (flows := flows) (resX := resX) (resY := resY) (mask := mask)
      (histogram := histogram) (key := key) (i := i)).1 h1
    have g2 := (generate_get (fl64 := fl64) (fl32 := fl32) (R := R) (p := p) (bounds := bounds) (flows := flows) (resX := resX) (resY := resY) (mask := mask)
      (histogram := histogram) (key := key) (i := i)).2 h2
    have hi : i < p.batchSize := by
      have := (List.getElem?_eq_some_iff.1 h1).1
      simpa [out, generate] using this
    have ed : d = row p.diameterRanges (rangeIdx R p key i).1 := by
      have : out.diameterRanges[i]? = some (row p.diameterRanges (rangeIdx R p key i).1) := by
        simp [out, generate, hi, pair]
      exact (Option.some.inj (h3.symm.trans this))
    have ei : int = row p.intensityRanges (rangeIdx R p key i).2.1 := by
      have : out.intensityRanges[i]? = some (row p.intensityRanges (rangeIdx R p key i).2.1) := by
        simp [out, generate, hi, pair]
      exact (Option.some.inj (h4.symm.trans this))
    have er : rho = row p.rhoRanges (rangeIdx R p key i).2.2 := by
      have : out.rhoRanges[i]? = some (row p.rhoRanges (rangeIdx R p key i).2.2) := by
        simp [out, generate, hi, pair]
      exact (Option.some.inj (h5.symm.trans this))
    refine ⟨_, _, _, _, g1, g2, by simp, fun k q q' hq hq' => ?_⟩
    have hk : k < numParticles fl64 bounds p := by
      have := (List.getElem?_eq_some_iff.1 hq).1
      simpa using this
    have hq1 : q = particle1 fl32 R p bounds key i k := by
      rw [List.getElem?_map, List.getElem?_range hk] at hq
      exact (Option.some.inj hq).symm
    have hq2 : q' = particle2 fl32 R p bounds (flowOf flows i) resX resY key i k := by
      rw [List.getElem?_map, List.getElem?_range hk] at hq'
      exact (Option.some.inj hq').symm
    have ld := hd.2 _ (row_mem hd.1 (rangeIdx R p key i).1)
    have li := hint.2 _ (row_mem hint.1 (rangeIdx R p key i).2.1)
    have lr := hrho.2 _ (row_mem hrho.1 (rangeIdx R p key i).2.2)
    rw [← ed] at ld; rw [← ei] at li; rw [← er] at lr
    have e1 : q.dx = between d.1 d.2 (R.uniform (propKey key i 0) k) := by rw [hq1, ed]; rfl
    have e2 : q.dy = clip (q.dx + between (-1) 1 (R.uniform (propKey key i 1) k)) d.1 d.2 := by rw [hq1, ed]; rfl
    have e3 : q.rho = between rho.1 rho.2 (R.uniform (propKey key i 2) k) := by rw [hq1, er]; rfl
    have f1 : q'.dx = clip (q.dx + R.normal (propKey key i 4) k * R.sqrt p.diameterVar) d.1 d.2 := by rw [hq2, hq1, ed]; rfl
    have f2 : q'.dy = clip (q.dy + R.normal (propKey key i 5) k * R.sqrt p.diameterVar) d.1 d.2 := by rw [hq2, hq1, ed]; rfl
    have f3 : q'.rho = clip (q.rho + R.normal (propKey key i 6) k * R.sqrt p.rhoVar) rho.1 rho.2 := by rw [hq2, hq1, er]; rfl
    refine ⟨⟨?_, ?_⟩, ⟨?_, ?_⟩, ⟨?_, ?_⟩, fun ha ha' => ?_⟩
    · rw [e1]; exact between_mem ld (hR _ _).2.le
    · rw [f1]; exact clip_clipped ld rd.1 rd.2
    · rw [e2]; exact clip_mem ld
    · rw [f2]; exact clip_clipped ld rd.1 rd.2
    · rw [e3]; exact between_mem lr (hR _ _).2.le
    · rw [f3]; exact clip_clipped lr rrho.1 rrho.2
    · have a1 : q.amp = between int.1 int.2 (R.uniform (propKey key i 3) k) := by
        rw [hq1] at ha ⊢
        rw [ei]
        unfold particle1 at ha ⊢
        dsimp only at ha ⊢
        split at ha
        · rename_i hs; rw [if_pos hs, mul_one]
        · simp at ha
      have a2 : q'.amp = clip (q.amp + R.normal (propKey key i 7) k * R.sqrt p.intensityVar) int.1 int.2 := by
        rw [a1]
        rw [hq2] at ha' ⊢
        rw [ei]
        unfold particle2 at ha' ⊢
        dsimp only at ha' ⊢
        split at ha'
        · rename_i hs; rw [if_pos hs, mul_one]
        · simp at ha'
      refine ⟨?_, ?_⟩
      · rw [a1]; exact between_mem li (hR _ _).2.le
      · rw [a2]; exact clip_clipped li rint.1 rint.2

/-- The specification with other variances. -/
def withVar (dv iv rv : K) (p : Params K) : Params K := { p with diameterVar := dv, intensityVar := iv, rhoVar := rv }

/-- **C188.** With the same draws and greater variances, every property of every particle changes at least as much, and in the same direction; properties the variance of which is
the same change the same. -/
theorem C188_more (fl32 : K → K) (R : Rand K) (hR : Lawful R) (p : Params K) (bounds : Nat × Nat) (flow : Adapter.Field2 K) (resX resY : K) (key : KeyTerm) (i k : Nat)
    (hd : Ranges p.diameterRanges) (hint : Ranges p.intensityRanges) (hrho : Ranges p.rhoRanges) (dv iv rv : K) (rd : Root R p.diameterVar) (rint : Root R p.intensityVar)
    (rrho : Root R p.rhoVar) (rd' : Root R dv) (rint' : Root R iv) (rrho' : Root R rv) (ld : p.diameterVar ≤ dv) (li : p.intensityVar ≤ iv) (lr : p.rhoVar ≤ rv) :
    let first := particle1 fl32 R p bounds key i k
    let second := particle2 fl32 R p bounds flow resX resY key i k
    let second' := particle2 fl32 R (withVar dv iv rv p) bounds flow resX resY key i k
    (|second.dx - first.dx| ≤ |second'.dx - first.dx| ∧ 0 ≤ (second.dx - first.dx) * (second'.dx - first.dx)) ∧
    (|second.dy - first.dy| ≤ |second'.dy - first.dy| ∧ 0 ≤ (second.dy - first.dy) * (second'.dy - first.dy)) ∧
    (|second.rho - first.rho| ≤ |second'.rho - first.rho| ∧ 0 ≤ (second.rho - first.rho) * (second'.rho - first.rho)) ∧
    (first.amp ≠ 0 → second.amp ≠ 0 → |second.amp - first.amp| ≤ |second'.amp - first.amp| ∧ 0 ≤ (second.amp - first.amp) * (second'.amp - first.amp)) ∧
    (dv = p.diameterVar → second'.dx = second.dx ∧ second'.dy = second.dy) ∧ (rv = p.rhoVar → second'.rho = second.rho) ∧ (iv = p.intensityVar → second'.amp = second.amp) ∧
    (second'.y, second'.x) = (second.y, second.x) := by
  intro first second second'
  have od := hd.2 _ (row_mem hd.1 (rangeIdx R p key i).1)
  have oi := hint.2 _ (row_mem hint.1 (rangeIdx R p key i).2.1)
  have or_ := hrho.2 _ (row_mem hrho.1 (rangeIdx R p key i).2.2)
  have m1 : (row p.diameterRanges (rangeIdx R p key i).1).1 ≤ first.dx ∧ first.dx ≤ (row p.diameterRanges (rangeIdx R p key i).1).2 := between_mem od (hR _ _).2.le
  have m2 : (row p.diameterRanges (rangeIdx R p key i).1).1 ≤ first.dy ∧ first.dy ≤ (row p.diameterRanges (rangeIdx R p key i).1).2 := clip_mem od
  have m3 : (row p.rhoRanges (rangeIdx R p key i).2.2).1 ≤ first.rho ∧ first.rho ≤ (row p.rhoRanges (rangeIdx R p key i).2.2).2 := between_mem or_ (hR _ _).2.le
  refine ⟨clipped_mono (clip_clipped od rd.1 rd.2) (clip_clipped od rd'.1 rd'.2) m1.1 m1.2 ld, clipped_mono (clip_clipped od rd.1 rd.2) (clip_clipped od rd'.1 rd'.2) m2.1 m2.2 ld,
    clipped_mono (clip_clipped or_ rrho.1 rrho.2) (clip_clipped or_ rrho'.1 rrho'.2) m3.1 m3.2 lr, fun ha hb => ?_, ?_, ?_, ?_, rfl⟩
  · have m4 := between_mem oi (hR (propKey key i 3) k).2.le
    have e1 : first.amp = between (row p.intensityRanges (rangeIdx R p key i).2.1).1 (row p.intensityRanges (rangeIdx R p key i).2.1).2 (R.uniform (propKey key i 3) k) := by
      simp only [first, particle1] at ha ⊢
      split at ha
      · rename_i hs; rw [if_pos hs, mul_one]
      · simp at ha
    have e2 := clipped_mono (clip_clipped (n := R.normal (propKey key i 7) k) oi rint.1 rint.2) (clip_clipped oi rint'.1 rint'.2) m4.1 m4.2 li
    have e3 : second.amp = clip (between (row p.intensityRanges (rangeIdx R p key i).2.1).1 (row p.intensityRanges (rangeIdx R p key i).2.1).2 (R.uniform (propKey key i 3) k) +
        R.normal (propKey key i 7) k * R.sqrt p.intensityVar) (row p.intensityRanges (rangeIdx R p key i).2.1).1 (row p.intensityRanges (rangeIdx R p key i).2.1).2 *
        (if bernoulli (1 - p.pHide2) (R.uniform (subkey key i 1) k) && mixed fl32 bounds (density fl32 R p key i) k then 1 else 0) := rfl
    have e4 : second'.amp = clip (between (row p.intensityRanges (rangeIdx R p key i).2.1).1 (row p.intensityRanges (rangeIdx R p key i).2.1).2 (R.uniform (propKey key i 3) k) +
        R.normal (propKey key i 7) k * R.sqrt iv) (row p.intensityRanges (rangeIdx R p key i).2.1).1 (row p.intensityRanges (rangeIdx R p key i).2.1).2 *
        (if bernoulli (1 - p.pHide2) (R.uniform (subkey key i 1) k) && mixed fl32 bounds (density fl32 R p key i) k then 1 else 0) := rfl
    by_cases hs : (bernoulli (1 - p.pHide2) (R.uniform (subkey key i 1) k) && mixed fl32 bounds (density fl32 R p key i) k) = true
    · rw [if_pos hs, mul_one] at e3 e4
      rw [e1, e3, e4]
      exact e2
    · rw [if_neg hs, mul_zero] at e3
      exact absurd e3 hb
  · rintro rfl; exact ⟨rfl, rfl⟩
  · rintro rfl; rfl
  · rintro rfl; rfl

/-- **C188 is false as documented**: the diameters of particles that are all to have the same diameter do not change, however great `diameter_var` is and whatever is drawn. So the change is not the
documented one unless the draw is 0. -/
theorem C188_refuted (fl32 : K → K) (R : Rand K) (hR : Lawful R) (p : Params K) (bounds : Nat × Nat) (flow : Adapter.Field2 K) (resX resY : K) (key : KeyTerm) (i k : Nat) (d : K)
    (hd : p.diameterRanges = [(d, d)]) (hv : 0 < p.diameterVar) :
    let first := particle1 fl32 R p bounds key i k
    let second := particle2 fl32 R p bounds flow resX resY key i k
    (second.dx = first.dx ∧ second.dy = first.dy) ∧ ∀ n, n ≠ 0 → ¬ Documented first.dx n p.diameterVar second.dx := by
  intro first second
  have hr : row p.diameterRanges (rangeIdx R p key i).1 = (d, d) := by
    have := row_mem (l := p.diameterRanges) (by rw [hd]; simp) (rangeIdx R p key i).1
    rw [hd] at this ⊢
    simpa using this
  have a1 : first.dx = d := by
    have : first.dx = between (row p.diameterRanges (rangeIdx R p key i).1).1 (row p.diameterRanges (rangeIdx R p key i).1).2 (R.uniform (propKey key i 0) k) := rfl
    rw [this, hr]
    have := between_mem (le_refl d) (hR (propKey key i 0) k).2.le
    exact le_antisymm this.2 this.1
  have cl : ∀ v : K, clip v (row p.diameterRanges (rangeIdx R p key i).1).1 (row p.diameterRanges (rangeIdx R p key i).1).2 = d := fun v => by
    rw [hr]
    have := clip_mem (v := v) (le_refl d)
    exact le_antisymm this.2 this.1
  have a2 : second.dx = d := cl _
  have a3 : first.dy = d := cl _
  have a4 : second.dy = d := cl _
  refine ⟨⟨a2.trans a1.symm, a4.trans a3.symm⟩, fun n hn => ?_⟩
  rintro ⟨s, -, s1, e⟩
  rw [a2, a1] at e
  have : n * s = 0 := by linarith
  rcases mul_eq_zero.1 this with h | h
  · exact hn h
  · rw [h, mul_zero] at s1
    exact hv.ne s1

/-- The hypotheses are met; and of the third particle of the example the draw is 1, so that with a variance of 1 its diameter would change from 3/4 to 7/4, but the range ends at 1; its correlation would change
from 0 to 1, but changes to 1/2. With variances of 0 nothing changes. -/
example : Root demoRand (1 : ℚ) ∧ Ranges demo.diameterRanges ∧ Ranges demo.intensityRanges ∧ Ranges demo.rhoRanges ∧
    (let q := particle1 id demoRand demo (10, 10) (.seed 0) 1 2
     let q' := particle2 id demoRand demo (10, 10) ⟨10, 10, fun _ _ => (1, 0)⟩ 1 1 (.seed 0) 1 2
     let q'' := particle2 id demoRand (withVar 0 0 0 demo) (10, 10) ⟨10, 10, fun _ _ => (1, 0)⟩ 1 1 (.seed 0) 1 2
     demoRand.normal (propKey (.seed 0) 1 4) 2 = 1 ∧ (q.dx, q'.dx, q''.dx) = (3 / 4, 1, 3 / 4) ∧ (q.rho, q'.rho, q''.rho) = (0, 1 / 2, 0)) := by
  refine ⟨⟨by decide +kernel, by decide +kernel⟩, ⟨by decide +kernel, by decide +kernel⟩, ⟨by decide +kernel, by decide +kernel⟩, ⟨by decide +kernel, by decide +kernel⟩, by decide +kernel⟩

end Verif.Generate

namespace Verif.Synthetic
open Verif Compare

/-- The arguments with other variances. -/
def withVariances (dv iv rv : ℚ) (a : Args) : Args := { a with spec := Generate.withVar dv iv rv a.spec }

theorem render_withVariances (fl fl32 : ℚ → ℚ) (R : Generate.Rand ℚ) (a : Args) (m : Made) (dv iv rv : ℚ) (k : KeyTerm) (n i : Nat) (f : Adapter.Field2 ℚ) :
    Pixels Eq (fun _ _ => True) Eq Eq (render fl fl32 R a m k n i f) (render fl fl32 R (withVariances dv iv rv a) m k n i f) := by
  have e1 : (render fl fl32 R (withVariances dv iv rv a) m k n i f).first = (render fl fl32 R a m k n i f).first := by
    unfold render Generate.pair
    dsimp only
    unfold Generate.finish
    rfl
  refine ⟨by rw [e1], ?_, fun _ _ => by rw [e1], fun _ _ => trivial, rfl, rfl, rfl, rfl⟩
  unfold render Generate.pair
  dsimp only
  unfold Generate.finish Generate.matched Generate.masked
  show _ = _
  simp only [histogramOf, withVariances, Generate.withVar]
  split <;> split <;> rfl

/-- **C188.** With other variances that are not negative, the sampler is accepted, and over every history of calls on every scheduler, with a mask, noise and a histogram or without, everything is the same
but the second images: the first images, the reported flow, the reported parameters, the masks, names and flags, the errors. -/
theorem C188_first (fl fl32 : ℚ → ℚ) (R : Generate.Rand ℚ) (a : Args) (m : Made) (hm : make fl fl32 a = .ok m) (dv iv rv : ℚ) (h1 : 0 ≤ dv) (h2 : 0 ≤ iv) (h3 : 0 ≤ rv) :
    make fl fl32 (withVariances dv iv rv a) = .ok m ∧ AlwaysAlike (Pixels Eq (fun _ _ => True) Eq Eq) fl fl32 R a (withVariances dv iv rv a) m := by
  refine ⟨?_, alwaysAlike rfl (render_withVariances fl fl32 R a m dv iv rv)⟩
  have h : specOK (withVariances dv iv rv a).spec (withVariances dv iv rv a).imgOffset = true := by
    have := (make_ok hm).1
    unfold specOK at this ⊢
    simp only [Bool.and_eq_true, decide_eq_true_eq, List.all_eq_true] at this ⊢
    obtain ⟨⟨⟨⟨⟨⟨⟨q1, q2⟩, q3⟩, q4⟩, q5⟩, q6, q7, q8⟩, q9⟩, q10⟩ := this
    exact ⟨⟨⟨⟨⟨⟨⟨q1, q2⟩, q3⟩, q4⟩, q5⟩, h1, h2, h3⟩, q9⟩, q10⟩
  rw [← hm]
  unfold make
  rw [h, (make_ok hm).1]
  rfl

/-- With variances of the diameter and the brightness, the first image stays the same and the second does not. -/
example : make id id demoShift = .ok demoShiftMade ∧ pixelsOf demoShift = some [[([714093065 / 23707644, 170469775 / 836772], [714093065 / 23707644, 0], 50, 200)]] ∧
    (pixelsOf (withVariances 1 30 0 demoShift)).map (fun l => l.map (fun l => l.map (fun q => (q.1, q.2.2)))) = some [[([714093065 / 23707644, 170469775 / 836772], 50, 200)]] ∧
    pixelsOf (withVariances 1 30 0 demoShift) ≠ pixelsOf demoShift := ⟨by decide +kernel, by decide +kernel, by decide +kernel, by decide +kernel⟩

end Verif.Synthetic
