import Verif.Props.Pillow
/-!
# Property C133: reported displacements stay within the range of the stored velocities
-/

namespace Verif.Whole
open Verif Verif.Whole.Spec

/-! ## Specification -/

/-- Both components of the flow in the array `a`, with `X` rows and `Z` columns, lie between `lo` and `hi` everywhere. -/
def Between (X Z : Nat) (lo hi : ℚ × ℚ) (a : Arr ℚ) : Prop :=
  ∀ j i, j < X → i < Z → ∃ u v, a.at? [j, i, 0] = some u ∧ a.at? [j, i, 1] = some v ∧
    (lo.1 ≤ u ∧ u ≤ hi.1) ∧ (lo.2 ≤ v ∧ v ≤ hi.2)

/-- The factor by which velocities are multiplied: pixels per unit of length times `dt`, if the output is in pixels. -/
def factor (a : Synthetic.Args) : ℚ := if a.pixels = some true then a.resolution * a.spec.dt else 1

/-- Both components of the flow reported for the pairs of a batch, those of padding aside, lie between `lo` and `hi` at every pixel. -/
def ReportsWithin (cfg : Sampler.Cfg) (lo hi : ℚ × ℚ) (x : Sampler.OutBatch (Adapter.Field2 ℚ) Synthetic.Pair) : Prop :=
  ∀ i f bits, x.flows[i]? = some f → x.mask = some bits → bits[Sampler.flowOf cfg.batchSize cfg.ndevices cfg.ffpb i]? = some true →
    ∀ y x, (lo.1 ≤ (f.at_ y x).1 ∧ (f.at_ y x).1 ≤ hi.1) ∧ (lo.2 ≤ (f.at_ y x).2 ∧ (f.at_ y x).2 ≤ hi.2)

/-! ## Lemmas -/

/-- The flow field lies between `lo` and `hi`. -/
def FieldWithin (lo hi : ℚ × ℚ) (f : Adapter.Field2 ℚ) : Prop :=
  0 < f.H ∧ 0 < f.W ∧ ∀ j i, j < f.H → i < f.W → (lo.1 ≤ (f.at_ j i).1 ∧ (f.at_ j i).1 ≤ hi.1) ∧ (lo.2 ≤ (f.at_ j i).2 ∧ (f.at_ j i).2 ≤ hi.2)

theorem resolution_pos {fl f32 : ℚ → ℚ} {a : Geometry.Args} {g : Geometry.Geo} (h : Geometry.build fl f32 a = .ok g) : 0 < a.resolution := by
  unfold Geometry.build at h
  dsimp only at h
  split at h
  · cases h
  split at h
  · cases h
  split at h
  · cases h
  rename_i h1 h2 h3
  first
  | linarith
  | (push_neg at h3; linarith)
  | (push_neg at h2; linarith)

theorem factor_pos {fl f32 : ℚ → ℚ} {a : Synthetic.Args} {m : Synthetic.Made} (hm : Synthetic.make fl f32 a = .ok m) : 0 < factor a := by
  obtain ⟨h1, _, _, _, _, _, _, h8, _⟩ := Synthetic.make_ok hm
  obtain ⟨s1, _⟩ := Synthetic.specOK_iff h1
  have := resolution_pos h8
  unfold factor
  split
  · exact mul_pos this s1
  · exact one_pos

theorem adapt_within {fl f32 : ℚ → ℚ} {R : Generate.Rand ℚ} {a : Synthetic.Args} {m : Synthetic.Made} (hm : Synthetic.make fl f32 a = .ok m)
    {lo hi : ℚ × ℚ} {f : Adapter.Field2 ℚ} (hf : FieldWithin lo hi f) (g32 : ℚ → ℚ) (j i : Nat) :
    (lo.1 * factor a ≤ (((Synthetic.gen fl g32 R a m).adapt f).1.at_ j i).1 ∧ (((Synthetic.gen fl g32 R a m).adapt f).1.at_ j i).1 ≤ hi.1 * factor a) ∧
    (lo.2 * factor a ≤ (((Synthetic.gen fl g32 R a m).adapt f).1.at_ j i).2 ∧ (((Synthetic.gen fl g32 R a m).adapt f).1.at_ j i).2 ≤ hi.2 * factor a) := by
  have hpos := factor_pos hm
  obtain ⟨_, _, _, _, _, _, h7, _, _⟩ := Synthetic.make_ok hm
  obtain ⟨f1, f2, f3⟩ := hf
  generalize hA : Adapter.ofGeo a.geometry m.geo m.outShape (m.cfg.batchSize / m.cfg.ndevices) m.pixels = A
  have hfac : Adapter.unitFactor A = factor a := by
    rw [← hA]
    unfold Adapter.unitFactor factor
    rw [h7]
    show (if m.pixels = true then a.resolution * a.spec.dt else 1) = _
    cases m.pixels <;> simp
  have hout : ((Synthetic.gen fl g32 R a m).adapt f).1.at_ j i = (Adapter.units A (Adapter.resized A (Adapter.padEdge A.padding f))).at_ j i := by
    rw [← hA]; rfl
  rw [hout, Adapter.units_at, hfac]
  have hH' : 0 < (Adapter.padEdge A.padding f).H := by show 0 < f.H + A.padding.1; omega
  have hW' : 0 < (Adapter.padEdge A.padding f).W := by show 0 < f.W + A.padding.2; omega
  have hpad : ∀ j i, j < (Adapter.padEdge A.padding f).H → i < (Adapter.padEdge A.padding f).W →
      (lo.1 ≤ ((Adapter.padEdge A.padding f).at_ j i).1 ∧ ((Adapter.padEdge A.padding f).at_ j i).1 ≤ hi.1) ∧
      (lo.2 ≤ ((Adapter.padEdge A.padding f).at_ j i).2 ∧ ((Adapter.padEdge A.padding f).at_ j i).2 ≤ hi.2) := by
    intro j i hj hi
    have hj' : j < f.H + A.padding.1 := hj
    have hi' : i < f.W + A.padding.2 := hi
    exact f3 (j - A.padding.1) (i - A.padding.2) (by omega) (by omega)
  have hs : (lo.1 ≤ ((Adapter.resized A (Adapter.padEdge A.padding f)).at_ j i).1 ∧ ((Adapter.resized A (Adapter.padEdge A.padding f)).at_ j i).1 ≤ hi.1) ∧
      (lo.2 ≤ ((Adapter.resized A (Adapter.padEdge A.padding f)).at_ j i).2 ∧ ((Adapter.resized A (Adapter.padEdge A.padding f)).at_ j i).2 ≤ hi.2) := by
    unfold Adapter.resized Adapter.sample
    dsimp only
    exact ⟨Interp.C51_in_range _ hH' hW' (fun j i hj hi => (hpad j i hj hi).1) _ _, Interp.C51_in_range _ hH' hW' (fun j i hj hi => (hpad j i hj hi).2) _ _⟩
  obtain ⟨⟨s1, s2⟩, s3, s4⟩ := hs
  exact ⟨⟨mul_le_mul_of_nonneg_right s1 hpos.le, mul_le_mul_of_nonneg_right s2 hpos.le⟩,
    mul_le_mul_of_nonneg_right s3 hpos.le, mul_le_mul_of_nonneg_right s4 hpos.le⟩

theorem field_within {X Z : Nat} {a : Arr ℚ} {f : Adapter.Field2 ℚ} (h : SynthAny.IsField X Z a f) (hX : 0 < X) (hZ : 0 < Z) {lo hi : ℚ × ℚ}
    (hc : Between X Z lo hi a) : FieldWithin lo hi f := by
  obtain ⟨h1, h2, h3⟩ := h
  refine ⟨by omega, by omega, fun j i hj hi => ?_⟩
  obtain ⟨e1, e2⟩ := h3 j i (by omega) (by omega)
  obtain ⟨u, v, c1, c2, c3⟩ := hc j i (by omega) (by omega)
  rw [c1] at e1
  rw [c2] at e2
  simp only [Option.some.injEq] at e1 e2
  rw [← e1, ← e2]
  exact c3

theorem madeOf_within {fl f32 g32 : ℚ → ℚ} {R : Generate.Rand ℚ} {a : Synthetic.Args} {m : Synthetic.Made} (hm : Synthetic.make fl f32 a = .ok m)
    {X Z n : Nat} (hX : 0 < X) (hZ : 0 < Z) {l : List (String × Arr ℚ)} {lo hi : ℚ × ℚ} (hl : ∀ q ∈ l, Between X Z lo hi q.2)
    {x : Sampler.OutBatch (Adapter.Field2 ℚ) Synthetic.Pair} (hx : SynthAny.MadeOf (Synthetic.gen fl g32 R a m) m.cfg X Z n l x) :
    ReportsWithin m.cfg (lo.1 * factor a, lo.2 * factor a) (hi.1 * factor a, hi.2 * factor a) x := by
  intro i f bits hf hb hbit
  obtain ⟨_, h2, h3, _, h5⟩ := hx
  have hi : i < m.cfg.batchSize := by rw [← h2]; exact (List.getElem?_eq_some_iff.1 hf).1
  obtain ⟨f', k1, _, k3, _⟩ := h5 i hi
  rw [hb] at h3
  simp only [Option.some.injEq] at h3
  have hlt : Sampler.flowOf m.cfg.batchSize m.cfg.ndevices m.cfg.ffpb i < l.length := by
    by_contra hge
    rw [h3, List.getElem?_append_right (by simpa using hge)] at hbit
    have := List.mem_of_getElem? hbit
    simp at this
  rw [hf] at k3
  simp only [Option.some.injEq] at k3
  rw [k3]
  have hq := List.getElem?_eq_getElem hlt
  exact adapt_within hm (field_within (k1 _ hq) hX hZ (hl _ (List.getElem_mem hlt))) g32

theorem mem_fields {content : String → List (Arr ℚ)} {order : List String} {q : String × Arr ℚ} (h : q ∈ SynthAny.fieldsOf content order) :
    q.1 ∈ order ∧ q.2 ∈ content q.1 := by
  unfold SynthAny.fieldsOf at h
  rw [List.mem_flatMap] at h
  obtain ⟨p, hp, hk⟩ := h
  rw [List.mem_map] at hk
  obtain ⟨b, hb, rfl⟩ := hk
  exact ⟨hp, hb⟩

theorem forever_within {E : Env} {s : Make.Smp} {fuel : Nat} {files : List String} {rnd : Bool} {a : Synthetic.Args} {m : Synthetic.Made} {X Z : Nat}
    {content : String → List (Arr ℚ)} (h : ServesForever E s fuel files rnd a m X Z content)
    (hm : Synthetic.make E.fl E.fl32 a = .ok m) (hX : 0 < X) (hZ : 0 < Z) {lo hi : ℚ × ℚ}
    (hc : ∀ p ∈ files, ∀ b ∈ content p, Between X Z lo hi b) (N : Nat) :
    ∃ outs, synthRun E fuel (List.replicate N .next) s = some outs ∧ outs.length = N ∧
      ∀ o ∈ outs, ∃ x, o = .batch x ∧ ReportsWithin m.cfg (lo.1 * factor a, lo.2 * factor a) (hi.1 * factor a, hi.2 * factor a) x ∧
        x.flows.length = m.cfg.batchSize := by
  obtain ⟨order, o1, _, o3⟩ := h
  obtain ⟨outs, r1, r2, K, _, r4⟩ := o3 N
  refine ⟨outs, r1, r2, ?_⟩
  intro o ho
  obtain ⟨n, hn⟩ := List.mem_iff_getElem?.1 ho
  have hlt : n < N := by rw [← r2]; exact (List.getElem?_eq_some_iff.1 hn).1
  obtain ⟨x, x1, x2, _⟩ := r4 n hlt
  rw [hn] at x1
  simp only [Option.some.injEq] at x1
  refine ⟨x, x1, madeOf_within hm hX hZ ?_ x2, x2.2.1⟩
  intro q hq
  have := List.mem_of_mem_drop (List.mem_of_mem_take hq)
  rw [List.mem_flatMap] at this
  obtain ⟨k, _, hk⟩ := this
  obtain ⟨m1, m2⟩ := mem_fields hk
  exact hc _ ((o1 k).mem_iff.1 m1) _ m2

theorem once_within {E : Env} {s : Make.Smp} {fuel : Nat} {files : List String} {rnd : Bool} {a : Synthetic.Args} {m : Synthetic.Made} {X Z : Nat}
    {content : String → List (Arr ℚ)} (h : ServesOnce E s fuel files rnd a m X Z content)
    (hm : Synthetic.make E.fl E.fl32 a = .ok m) (hX : 0 < X) (hZ : 0 < Z) {lo hi : ℚ × ℚ}
    (hc : ∀ p ∈ files, ∀ b ∈ content p, Between X Z lo hi b) :
    ∃ outs, synthRun E fuel (List.replicate (((SynthAny.fieldsOf content files).length + m.cfg.ffpb - 1) / m.cfg.ffpb * m.cfg.bpfb + 1) .next) s =
        some outs ∧ outs.getLast? = some (.raised .stopIteration) ∧
      ∀ x, .batch x ∈ outs → ReportsWithin m.cfg (lo.1 * factor a, lo.2 * factor a) (hi.1 * factor a, hi.2 * factor a) x := by
  obtain ⟨order, o1, _, outs, r1, r2, r3, r4⟩ := h
  refine ⟨outs, r1, by rw [List.getLast?_eq_getElem?, r2]; exact r4, ?_⟩
  intro x hx
  obtain ⟨n, hn⟩ := List.mem_iff_getElem?.1 hx
  have hlt : n < ((SynthAny.fieldsOf content files).length + m.cfg.ffpb - 1) / m.cfg.ffpb * m.cfg.bpfb := by
    have h1 : n < outs.length := (List.getElem?_eq_some_iff.1 hn).1
    by_contra hge
    have : n = ((SynthAny.fieldsOf content files).length + m.cfg.ffpb - 1) / m.cfg.ffpb * m.cfg.bpfb := by omega
    rw [this, r4] at hn
    cases hn
  obtain ⟨x', x1, x2, _⟩ := r3 n hlt
  rw [hn] at x1
  cases x1
  refine madeOf_within hm hX hZ ?_ x2
  intro q hq
  obtain ⟨m1, m2⟩ := mem_fields (List.mem_of_mem_drop (List.mem_of_mem_take hq))
  exact hc _ (o1.mem_iff.1 m1) _ m2

/-- What the MAT scheduler makes of a stored array stays within the scaled range. -/
theorem resized_between {io : Formats.MatIO} (hio : io.resizeFlow = Pillow.resize) {h w H W : Nat} {lo hi : ℚ × ℚ} {V a : Arr ℚ}
    (hu : Pillow.StoredWithin V h w 0 lo.1 hi.1) (hv : Pillow.StoredWithin V h w 1 lo.2 hi.2) (hr : Resized io H W V a) :
    Between H W (lo.1 * ((W : ℚ) / w), lo.2 * ((H : ℚ) / h)) (hi.1 * ((W : ℚ) / w), hi.2 * ((H : ℚ) / h)) a := by
  obtain ⟨_, _, h', w', us, vs, ru, rv, hh, hw, cu, cv, hres, hat⟩ := hr
  obtain ⟨rfl, rfl⟩ := Pillow.component_size hu cu
  have hdis : ((h' = H ∧ w' = W ∧ ru = us) ∨ Pillow.resize us W H = .ok ru) ∧ ((h' = H ∧ w' = W ∧ rv = vs) ∨ Pillow.resize vs W H = .ok rv) := by
    split at hres
    · rename_i he
      simp only [Prod.mk.injEq] at he
      exact ⟨.inl ⟨he.1, he.2, hres.1⟩, .inl ⟨he.1, he.2, hres.2⟩⟩
    · rw [hio] at hres
      exact ⟨.inr hres.1, .inr hres.2⟩
  intro j i hj hi'
  obtain ⟨a0, a1⟩ := hat j i hj hi'
  obtain ⟨u, u1, u2⟩ := Pillow.scaled_within (s := (W : ℚ) / w') (by positivity) (Pillow.resampled_within hh hw cu.1 (Pillow.component_within hu cu) hdis.1 j i hj hi')
  obtain ⟨v, v1, v2⟩ := Pillow.scaled_within (s := (H : ℚ) / h') (by positivity) (Pillow.resampled_within hh hw cv.1 (Pillow.component_within hv cv) hdis.2 j i hj hi')
  exact ⟨u, v, by rw [a0]; exact u1, by rw [a1]; exact v1, u2, v2⟩

/-! ## C133 -/

/-- **C133** for NumPy files: if the components of all flow fields in the files lie between `lo` and `hi`, those of every flow reported lie
between `lo` and `hi` times pixels per unit of length times `dt` (or times 1, if the output is not in pixels). -/
theorem C133_npy (E : Env) (arg : Make.Arg) (d : Make.Dict) (hd : Make.Spec.ConfigOf (world E) arg d) (s : Make.Smp)
    (h : Make.make (world E) arg = .ok s) (hp : Plain d .npy false) :
    ∃ files rnd lp a m, FilesOf E .npy d files ∧ Make.Spec.ValueOr d "randomize" (.bool false) (.bool rnd) ∧
      Make.Spec.ValueOr d "loop" (.bool true) (.bool lp) ∧ Configured E d a ∧ Synthetic.make E.fl E.fl32 a = .ok m ∧
      ∀ X Z C content lo hi, NpContents E.np X Z C files content → 2 ≤ C → 0 < X → 0 < Z → files.Nodup →
        (rnd = true → ∀ k n, (E.perm k n).Perm (List.range n)) → a.ndevices ∣ m.cfg.ffpb →
        (∀ p ∈ files, ∀ b ∈ content p, Between X Z lo hi b) →
        (lp = true → SynthAny.fieldsOf content files ≠ [] → ∀ fuel, 2 * files.length ≤ fuel → ∀ N,
          ∃ outs, synthRun E fuel (List.replicate N .next) s = some outs ∧ outs.length = N ∧
            ∀ o ∈ outs, ∃ x, o = .batch x ∧ ReportsWithin m.cfg (lo.1 * factor a, lo.2 * factor a) (hi.1 * factor a, hi.2 * factor a) x ∧
              x.flows.length = m.cfg.batchSize) ∧
        (lp = false → ∀ fuel, files.length < fuel →
          ∃ outs, synthRun E fuel (List.replicate (((SynthAny.fieldsOf content files).length + m.cfg.ffpb - 1) / m.cfg.ffpb * m.cfg.bpfb + 1) .next) s =
              some outs ∧ outs.getLast? = some (.raised .stopIteration) ∧
            ∀ x, .batch x ∈ outs → ReportsWithin m.cfg (lo.1 * factor a, lo.2 * factor a) (hi.1 * factor a, hi.2 * factor a) x) := by
  obtain ⟨files, rnd, lp, a, m, f1, f2, f3, f4, f5, _, f6⟩ := C116_npy E arg d hd s h hp
  refine ⟨files, rnd, lp, a, m, f1, f2, f3, f4, f5, ?_⟩
  intro X Z C content lo hi hc hC hX hZ hnd hrnd hdv hin
  obtain ⟨_, g1, g2⟩ := f6 X Z C content hc hC hnd hrnd hdv
  exact ⟨fun hl hne fuel hfuel N => forever_within (g1 hl hne fuel hfuel) f5 hX hZ hin N,
    fun hl fuel hfuel => once_within (g2 hl fuel hfuel) f5 hX hZ hin⟩

/-- **C133** for MAT files, resized with Pillow's filter: the same with the range multiplied by 256 over the number of columns and rows that are
stored. -/
theorem C133_mat (E : Env) (arg : Make.Arg) (d : Make.Dict) (hd : Make.Spec.ConfigOf (world E) arg d) (s : Make.Smp)
    (h : Make.make (world E) arg = .ok s) (hp : Plain d .mat false) (hio : E.mat.resizeFlow = Pillow.resize)
    (himg : ∀ (a r : Arr ℚ) (w h : Nat), E.mat.resizeImage a w h = .ok r → r.shape.take 2 = [h, w]) :
    ∃ files rnd lp a m, FilesOf E .mat d files ∧ Make.Spec.ValueOr d "randomize" (.bool false) (.bool rnd) ∧
      Make.Spec.ValueOr d "loop" (.bool true) (.bool lp) ∧ Configured E d a ∧ Synthetic.make E.fl E.fl32 a = .ok m ∧
      ∀ (r c : Nat) (lo hi : ℚ × ℚ), 0 < r → 0 < c →
        (∀ p ∈ files, ∃ data V, Formats.matRead E.mat p = .ok data ∧ data.lookup "V" = some V ∧ V.WF ∧
          Pillow.StoredWithin V r c 0 lo.1 hi.1 ∧ Pillow.StoredWithin V r c 1 lo.2 hi.2) →
        files.Nodup → (rnd = true → ∀ k n, (E.perm k n).Perm (List.range n)) → a.ndevices ∣ m.cfg.ffpb →
        (lp = true → ∀ fuel, 2 * files.length ≤ fuel → ∀ N,
          ∃ outs, synthRun E fuel (List.replicate N .next) s = some outs ∧ outs.length = N ∧
            ∀ o ∈ outs, ∃ x, o = .batch x ∧
              ReportsWithin m.cfg (lo.1 * (256 / (c : ℚ)) * factor a, lo.2 * (256 / (r : ℚ)) * factor a)
                (hi.1 * (256 / (c : ℚ)) * factor a, hi.2 * (256 / (r : ℚ)) * factor a) x ∧
              x.flows.length = m.cfg.batchSize) ∧
        (lp = false → ∀ fuel, files.length < fuel →
          ∃ outs, synthRun E fuel (List.replicate ((files.length + m.cfg.ffpb - 1) / m.cfg.ffpb * m.cfg.bpfb + 1) .next) s = some outs ∧
            outs.getLast? = some (.raised .stopIteration) ∧
            ∀ x, .batch x ∈ outs → ReportsWithin m.cfg (lo.1 * (256 / (c : ℚ)) * factor a, lo.2 * (256 / (r : ℚ)) * factor a)
                (hi.1 * (256 / (c : ℚ)) * factor a, hi.2 * (256 / (r : ℚ)) * factor a) x) := by
  obtain ⟨files, rnd, lp, a, m, f1, f2, f3, f4, f5, _, _, f6⟩ := C116_mat E arg d hd s h hp (Pillow.filter_pilOK hio himg)
  refine ⟨files, rnd, lp, a, m, f1, f2, f3, f4, f5, ?_⟩
  intro r c lo hi hr hc hst hnd hrnd hdv
  have ho : Ordinary E.mat files := by
    intro p hp data V h1 h2
    obtain ⟨data', V', g1, g2, g3, g4, _⟩ := hst p hp
    rw [g1] at h1
    cases h1
    rw [g2] at h2
    cases h2
    refine ⟨g3, ?_⟩
    rcases g4 with ⟨e, _⟩ | ⟨e, _⟩ <;> rw [e] <;> simp
  obtain ⟨content, hcont, g⟩ := f6 ho
  obtain ⟨g, g'⟩ := g hnd hrnd hdv
  have hcon : ∀ p ∈ files, ∃ b, content p = [b] ∧
      Between 256 256 (lo.1 * (256 / (c : ℚ)), lo.2 * (256 / (r : ℚ))) (hi.1 * (256 / (c : ℚ)), hi.2 * (256 / (r : ℚ))) b := by
    intro p hp
    obtain ⟨data', V', g1, g2, _, g4, g5⟩ := hst p hp
    rcases hcont p hp with ⟨data, V, b, e, h1, h2, h3⟩ | ⟨_, h1⟩
    · rw [g1] at h1
      cases h1
      rw [g2] at h2
      cases h2
      exact ⟨b, e, resized_between hio g4 g5 h3⟩
    · refine absurd ⟨r, c, ?_, hr, hc⟩ (h1 data' V' g1 g2)
      rcases g4 with ⟨e, _⟩ | ⟨e, _⟩
      · exact .inl e
      · exact .inr e
  have hne : SynthAny.fieldsOf content files ≠ [] := by
    have hfe := f1.choose_spec.2.2.1
    obtain ⟨p, l, rfl⟩ := List.exists_cons_of_ne_nil hfe
    obtain ⟨b, e, _⟩ := hcon p (by simp)
    simp [SynthAny.fieldsOf, e]
  have hbet : ∀ p ∈ files, ∀ b ∈ content p,
      Between 256 256 (lo.1 * (256 / (c : ℚ)), lo.2 * (256 / (r : ℚ))) (hi.1 * (256 / (c : ℚ)), hi.2 * (256 / (r : ℚ))) b := by
    intro p hp b hb
    obtain ⟨b', e, hc'⟩ := hcon p hp
    rw [e, List.mem_singleton] at hb
    rw [hb]
    exact hc'
  have hlen : (SynthAny.fieldsOf content files).length = files.length := by
    have : ∀ l : List String, (∀ p ∈ l, p ∈ files) → (SynthAny.fieldsOf content l).length = l.length := by
      intro l
      induction l with
      | nil => intro _; rfl
      | cons p l ih =>
        intro hl
        obtain ⟨b, e, _⟩ := hcon p (hl p (by simp))
        have := ih (fun q hq => hl q (by simp [hq]))
        simp only [SynthAny.fieldsOf, List.flatMap_cons, e, List.map_cons, List.map_nil, List.length_append, List.length_cons, List.length_nil] at this ⊢
        omega
    exact this files (fun _ h => h)
  refine ⟨fun hlp fuel hfuel N => forever_within (lo := (lo.1 * (256 / (c : ℚ)), lo.2 * (256 / (r : ℚ))))
    (hi := (hi.1 * (256 / (c : ℚ)), hi.2 * (256 / (r : ℚ)))) (g hlp hne fuel hfuel) f5 (by omega) (by omega) hbet N, ?_⟩
  intro hlp fuel hfuel
  obtain ⟨outs, q1, q2, q3⟩ := once_within (lo := (lo.1 * (256 / (c : ℚ)), lo.2 * (256 / (r : ℚ))))
    (hi := (hi.1 * (256 / (c : ℚ)), hi.2 * (256 / (r : ℚ)))) (g' hlp fuel hfuel) f5 (by omega) (by omega) hbet
  rw [hlen] at q1
  exact ⟨outs, q1, q2, q3⟩

/-- A batch made of fields of HDF5 files whose velocities lie in a range. -/
theorem h5_madeOf_within {fl f32 g32 : ℚ → ℚ} {R : Generate.Rand ℚ} {a : Synthetic.Args} {m : Synthetic.Made} (hm : Synthetic.make fl f32 a = .ok m)
    {X Z n : Nat} (hX : 0 < X) (hZ : 0 < Z) {files : List String} {content : String → Option (Arr ℚ)} {lo hi : ℚ × ℚ}
    (hu : ∀ p ∈ files, ∀ vol, content p = some vol → ∀ j y i, j < X → y < vol.shape.getD 1 0 → i < Z →
          ∃ u v, vol.at? [j, y, i, 0] = some u ∧ vol.at? [j, y, i, 1] = some v ∧ (lo.1 ≤ u ∧ u ≤ hi.1) ∧ (lo.2 ≤ v ∧ v ≤ hi.2))
    {l : List (String × Nat)} (hmem : ∀ q ∈ l, q.1 ∈ files ∧ ∀ vol, content q.1 = some vol → q.2 < vol.shape.getD 1 0)
    {x : Sampler.OutBatch (Adapter.Field2 ℚ) Synthetic.Pair} (hx : SynthPipeline.MadeOf (Synthetic.gen fl g32 R a m) m.cfg X Z content n l x) :
    ReportsWithin m.cfg (lo.1 * factor a, lo.2 * factor a) (hi.1 * factor a, hi.2 * factor a) x := by
  obtain ⟨_, h2, h3, _, h5⟩ := hx
  intro i f bits hf hb hbit
  have hi' : i < m.cfg.batchSize := by rw [← h2]; exact (List.getElem?_eq_some_iff.1 hf).1
  obtain ⟨f', k1, _, k3, _⟩ := h5 i hi'
  rw [hb] at h3
  simp only [Option.some.injEq] at h3
  have hlt' : Sampler.flowOf m.cfg.batchSize m.cfg.ndevices m.cfg.ffpb i < l.length := by
    by_contra hge
    rw [h3, List.getElem?_append_right (by simpa using hge)] at hbit
    have := List.mem_of_getElem? hbit
    simp at this
  rw [hf] at k3
  simp only [Option.some.injEq] at k3
  rw [k3]
  have hq := List.getElem?_eq_getElem hlt'
  obtain ⟨vol, v1, v2, v3, v4⟩ := k1 _ hq
  obtain ⟨m1, m2⟩ := hmem _ (List.getElem_mem hlt')
  refine adapt_within hm ⟨by omega, by omega, fun j i hj hi => ?_⟩ g32
  obtain ⟨e1, e2⟩ := v4 j i (by omega) (by omega)
  obtain ⟨u, v, c1, c2, c3⟩ := hu _ m1 vol v1 j _ i (by omega) (m2 vol v1) (by omega)
  rw [c1] at e1
  rw [c2] at e2
  simp only [Option.some.injEq] at e1 e2
  rw [← e1, ← e2]
  exact c3

theorem mem_slices {content : String → Option (Arr ℚ)} {order : List String} {q : String × Nat} (hk : q ∈ SynthPipeline.fieldsOf content order) :
    q.1 ∈ order ∧ ∀ vol, content q.1 = some vol → q.2 < vol.shape.getD 1 0 := by
  unfold SynthPipeline.fieldsOf at hk
  rw [List.mem_flatMap] at hk
  obtain ⟨p, hp, hk⟩ := hk
  cases hv : content p with
  | none => rw [hv] at hk; cases hk
  | some vol =>
    rw [hv] at hk
    simp only [List.mem_map, List.mem_range] at hk
    obtain ⟨y, hy, rfl⟩ := hk
    refine ⟨hp, ?_⟩
    intro vol' hv'
    rw [hv] at hv'
    cases hv'
    exact hy

/-- **C133** for HDF5 files: likewise for all `y`-slices. -/
theorem C133_h5 (E : Env) (arg : Make.Arg) (d : Make.Dict) (hd : Make.Spec.ConfigOf (world E) arg d) (s : Make.Smp)
    (h : Make.make (world E) arg = .ok s) (hp : Plain d .h5 false) (hl : Make.Spec.ValueOr d "loop" (.bool true) (.bool true)) :
    ∃ files rnd a m, FilesOf E .h5 d files ∧ Make.Spec.ValueOr d "randomize" (.bool false) (.bool rnd) ∧ Configured E d a ∧
      Synthetic.make E.fl E.fl32 a = .ok m ∧
      ∀ X Z C content (lo hi : ℚ × ℚ), SynthPipeline.Contents E.h5 X Z C files content → 2 ≤ C → 0 < X → 0 < Z → files.Nodup →
        (rnd = true → ∀ k n, (E.perm k n).Perm (List.range n)) → a.ndevices ∣ m.cfg.ffpb → SynthPipeline.fieldsOf content files ≠ [] →
        (∀ p ∈ files, ∀ vol, content p = some vol → ∀ j y i, j < X → y < vol.shape.getD 1 0 → i < Z →
          ∃ u v, vol.at? [j, y, i, 0] = some u ∧ vol.at? [j, y, i, 1] = some v ∧ (lo.1 ≤ u ∧ u ≤ hi.1) ∧ (lo.2 ≤ v ∧ v ≤ hi.2)) →
        ∀ fuel, 2 * files.length ≤ fuel → ∀ N,
        ∃ outs, synthRun E fuel (List.replicate N .next) s = some outs ∧ outs.length = N ∧
          ∀ o ∈ outs, ∃ x, o = .batch x ∧ ReportsWithin m.cfg (lo.1 * factor a, lo.2 * factor a) (hi.1 * factor a, hi.2 * factor a) x ∧
            x.flows.length = m.cfg.batchSize := by
  obtain ⟨files, rnd, a, m, f1, f2, f4, f5, _, f6⟩ := C110_h5_looping E arg d hd s h hp hl
  refine ⟨files, rnd, a, m, f1, f2, f4, f5, ?_⟩
  intro X Z C content lo hi hc hC hX hZ hnd hrnd hdv hne hu fuel hfuel N
  obtain ⟨_, order, o1, _, o3⟩ := f6 X Z C content hc hC hne hnd hrnd hdv fuel hfuel
  obtain ⟨outs, r1, r2, K, r3, r4⟩ := o3 N
  refine ⟨outs, r1, r2, ?_⟩
  intro o ho
  obtain ⟨n, hn⟩ := List.mem_iff_getElem?.1 ho
  have hlt : n < N := by rw [← r2]; exact (List.getElem?_eq_some_iff.1 hn).1
  obtain ⟨x, x1, x2, _⟩ := r4 n hlt
  rw [hn] at x1
  simp only [Option.some.injEq] at x1
  refine ⟨x, x1, h5_madeOf_within f5 hX hZ hu ?_ x2, x2.2.1⟩
  intro q hq
  have := List.mem_of_mem_drop (List.mem_of_mem_take hq)
  rw [List.mem_flatMap] at this
  obtain ⟨k, _, hk⟩ := this
  obtain ⟨m1, m2⟩ := mem_slices hk
  exact ⟨(o1 k).mem_iff.1 m1, m2⟩

/-- **C133** for HDF5 files that are read once: likewise for all the batches until `StopIteration`. -/
theorem C133_h5_once (E : Env) (arg : Make.Arg) (d : Make.Dict) (hd : Make.Spec.ConfigOf (world E) arg d) (s : Make.Smp)
    (h : Make.make (world E) arg = .ok s) (hp : Plain d .h5 false) (hl : Make.Spec.ValueOr d "loop" (.bool true) (.bool false)) :
    ∃ files rnd a m, FilesOf E .h5 d files ∧ Make.Spec.ValueOr d "randomize" (.bool false) (.bool rnd) ∧ Configured E d a ∧
      Synthetic.make E.fl E.fl32 a = .ok m ∧
      ∀ X Z C content (lo hi : ℚ × ℚ), SynthPipeline.Contents E.h5 X Z C files content → 2 ≤ C → 0 < X → 0 < Z → files.Nodup →
        (rnd = true → ∀ k n, (E.perm k n).Perm (List.range n)) → a.ndevices ∣ m.cfg.ffpb →
        (∀ p ∈ files, ∀ vol, content p = some vol → ∀ j y i, j < X → y < vol.shape.getD 1 0 → i < Z →
          ∃ u v, vol.at? [j, y, i, 0] = some u ∧ vol.at? [j, y, i, 1] = some v ∧ (lo.1 ≤ u ∧ u ≤ hi.1) ∧ (lo.2 ≤ v ∧ v ≤ hi.2)) →
        ∀ fuel, files.length < fuel →
        ∃ outs, synthRun E fuel (List.replicate (((SynthPipeline.fieldsOf content files).length + m.cfg.ffpb - 1) / m.cfg.ffpb * m.cfg.bpfb + 1) .next) s =
            some outs ∧ outs.getLast? = some (.raised .stopIteration) ∧
          ∀ x, .batch x ∈ outs → ReportsWithin m.cfg (lo.1 * factor a, lo.2 * factor a) (hi.1 * factor a, hi.2 * factor a) x := by
  obtain ⟨files, rnd, a, m, f1, f2, f4, f5, _, f6⟩ := C110_h5_ends E arg d hd s h hp hl
  refine ⟨files, rnd, a, m, f1, f2, f4, f5, ?_⟩
  intro X Z C content lo hi hc hC hX hZ hnd hrnd hdv hu fuel hfuel
  obtain ⟨_, order, o1, _, outs, r1, r2, r3, r4⟩ := f6 X Z C content hc hC hnd hrnd hdv fuel hfuel
  refine ⟨outs, r1, by rw [List.getLast?_eq_getElem?, r2]; exact r4, ?_⟩
  intro x hx
  obtain ⟨n, hn⟩ := List.mem_iff_getElem?.1 hx
  have hlt : n < ((SynthPipeline.fieldsOf content files).length + m.cfg.ffpb - 1) / m.cfg.ffpb * m.cfg.bpfb := by
    have h1 : n < outs.length := (List.getElem?_eq_some_iff.1 hn).1
    by_contra hge
    have : n = ((SynthPipeline.fieldsOf content files).length + m.cfg.ffpb - 1) / m.cfg.ffpb * m.cfg.bpfb := by omega
    rw [this, r4] at hn
    cases hn
  obtain ⟨x', x1, x2, _⟩ := r3 n hlt
  rw [hn] at x1
  cases x1
  refine h5_madeOf_within f5 hX hZ hu ?_ x2
  intro q hq
  obtain ⟨m1, m2⟩ := mem_slices (List.mem_of_mem_drop (List.mem_of_mem_take hq))
  exact ⟨o1.mem_iff.1 m1, m2⟩

/-- The hypotheses of `C133_npy` are met: one file with the flow `(1, 1)`, which lies between `(0, 1)` and `(2, 1)`. -/
example : (Make.make (world demoFiles) (.dict (("file_list", .list [.str "flow_1.npy"]) :: ("loop", .bool true) :: demoNpyDict))).isOk = true ∧
    Between 12 12 (0, 1) (2, 1) (Arr.zeros 1 [12, 12, 2]) :=
  ⟨by decide +kernel, fun j i hj hi => ⟨1, 1, zeros_at3 1 hj hi (by omega), zeros_at3 1 hj hi (by omega), by norm_num, by norm_num⟩⟩

/-- Those of `C133_h5` and `C133_h5_once` on the contents: all velocities in the files of `demoEnv` lie between 0 and 1; its configuration is accepted with and
without `loop`. -/
example : (Make.make (world demoEnv) (.dict demoDict)).isOk = true ∧ (Make.make (world demoEnv) (.dict (("loop", .bool false) :: demoDict))).isOk = true ∧
    ∀ p ∈ ["a.h5", "x.h5", "b.h5"], ∀ vol, demoContent p = some vol → ∀ j y i, j < 12 → y < vol.shape.getD 1 0 → i < 12 →
      ∃ u v, vol.at? [j, y, i, 0] = some u ∧ vol.at? [j, y, i, 1] = some v ∧ ((0 : ℚ) ≤ u ∧ u ≤ 1) ∧ ((0 : ℚ) ≤ v ∧ v ≤ 1) := by
  refine ⟨by decide +kernel, by decide +kernel, ?_⟩
  have key : ∀ (n : Nat) (data : List ℚ), data.length = 12 * (n * 24) → (∀ q ∈ data, 0 ≤ q ∧ q ≤ 1) → ∀ j y i c, j < 12 → y < n → i < 12 → c < 2 →
      ∃ u, (Arr.mk [12, n, 12, 2] data).at? [j, y, i, c] = some u ∧ 0 ≤ u ∧ u ≤ 1 := by
    intro n data hl hq j y i c hj hy hi hc
    have hk : j * (n * 24) + (y * 24 + (i * 2 + c)) < data.length := by rw [hl]; nlinarith
    refine ⟨data[j * (n * 24) + (y * 24 + (i * 2 + c))], ?_, hq _ (List.getElem_mem hk)⟩
    simp only [Arr.at?, Arr.offset, Arr.size, hj, hy, hi, hc, if_true, Option.map_some, Option.bind_some, List.foldr]
    rw [← List.getElem?_eq_getElem hk]
    congr 1
    norm_num
  intro p hp vol hv j y i hj hy hi
  have two : ∃ n data, vol = ⟨[12, n, 12, 2], data⟩ ∧ data.length = 12 * (n * 24) ∧ ∀ q ∈ data, 0 ≤ q ∧ q ≤ 1 := by
    unfold demoContent at hv
    split at hv
    · cases hv
      refine ⟨2, _, rfl, by simp, ?_⟩
      intro q hq
      simp only [List.mem_map, List.mem_range] at hq
      obtain ⟨k, _, rfl⟩ := hq
      have : k % 2 < 2 := Nat.mod_lt _ (by omega)
      exact ⟨Nat.cast_nonneg _, by exact_mod_cast (by omega : k % 2 ≤ 1)⟩
    · split at hv
      · cases hv
        refine ⟨1, _, rfl, List.length_replicate, ?_⟩
        intro q hq
        rw [List.eq_of_mem_replicate hq]
        norm_num
      · cases hv
  obtain ⟨n, data, rfl, hl, hq⟩ := two
  obtain ⟨u, u1, u2⟩ := key n data hl hq j y i 0 hj hy hi (by omega)
  obtain ⟨v, v1, v2⟩ := key n data hl hq j y i 1 hj hy hi (by omega)
  exact ⟨u, v, u1, v1, u2, v2⟩

/-- The configuration of `demoWide` with Pillow's filter: those of `C133_mat` are met by the one file with 512 x 1024 vectors `(1, 1)`. -/
example : ∃ E : Env, E.mat.resizeFlow = Pillow.resize ∧ (Make.make (world E) (.dict demoWideDict)).isOk = true ∧
    (∀ (a r : Arr ℚ) (w h : Nat), E.mat.resizeImage a w h = .ok r → r.shape.take 2 = [h, w]) ∧
    ∃ V, Formats.matRead E.mat "a.mat" = .ok [("V", V)] ∧ V.WF ∧ Pillow.StoredWithin V 512 1024 0 0 2 ∧ Pillow.StoredWithin V 512 1024 1 1 1 := by
  refine ⟨{ demoWide with mat := { demoWide.mat with resizeFlow := Pillow.resize, resizeImage := fun _ w h => .ok (Arr.zeros 0 [h, w]) } }, rfl,
    by decide +kernel, ?_, Arr.zeros 1 [512, 1024, 2], rfl, by simp [Arr.WF, Arr.zeros], ?_, ?_⟩
  · intro a r w h hr
    have : r = Arr.zeros 0 [h, w] := by
      simp only [Except.ok.injEq] at hr
      exact hr.symm
    rw [this]; rfl
  · exact .inl ⟨rfl, fun j i hj hi => ⟨1, zeros_at3 1 hj hi (by omega), by norm_num⟩⟩
  · exact .inl ⟨rfl, fun j i hj hi => ⟨1, zeros_at3 1 hj hi (by omega), by norm_num⟩⟩

end Verif.Whole
