import Verif.Props.SynthMat
/-!
# Property C117: the flow reported for uniform flow fields, by file format
-/

namespace Verif.Whole
open Verif Verif.Whole.Spec

/-! ## Specification -/

/-- The array `a`, with `X` rows and `Z` columns, is `(u, v)` everywhere. -/
def Constant (X Z : Nat) (u v : ℚ) (a : Arr ℚ) : Prop :=
  ∀ j i, j < X → i < Z → a.at? [j, i, 0] = some u ∧ a.at? [j, i, 1] = some v

/-- The array `V` of a MAT file is `(u, v)` everywhere on a grid of `h` rows and `w` columns. -/
def Stored (h w : Nat) (u v : ℚ) (V : Arr ℚ) : Prop :=
  V.WF ∧ V.shape = [h, w, 2] ∧ ∀ j i, j < h → i < w → V.at? [j, i, 0] = some u ∧ V.at? [j, i, 1] = some v

/-- Resampling keeps constants. -/
def KeepsConstants (io : Formats.MatIO) : Prop :=
  ∀ (a r : Arr ℚ) (h w H W : Nat) (c : ℚ), a.shape = [h, w] → 0 < h → 0 < w → (∀ j i, j < h → i < w → a.at? [j, i] = some c) →
    io.resizeFlow a W H = .ok r → ∀ j i, j < H → i < W → r.at? [j, i] = some c

/-- The flow reported for the pairs of a batch, those of padding aside, is `q` at every pixel. -/
def Reports (cfg : Sampler.Cfg) (q : ℚ × ℚ) (x : Sampler.OutBatch (Adapter.Field2 ℚ) Synthetic.Pair) : Prop :=
  ∀ i f bits, x.flows[i]? = some f → x.mask = some bits → bits[Sampler.flowOf cfg.batchSize cfg.ndevices cfg.ffpb i]? = some true →
    ∀ y x, f.at_ y x = q

/-! ## Lemmas -/

theorem adapt_uniform {f32 : ℚ → ℚ} {R : Generate.Rand ℚ} {a : Synthetic.Args} {m : Synthetic.Made} (hm : Synthetic.make id f32 a = .ok m)
    (hpx : a.pixels = some true) {u v : ℚ} {f : Adapter.Field2 ℚ} (hf : Synthetic.UniformField u v f) (g32 : ℚ → ℚ) :
    ∀ j i, ((Synthetic.gen id g32 R a m).adapt f).1.at_ j i = (u * a.resolution * a.spec.dt, v * a.resolution * a.spec.dt) := by
  obtain ⟨h1, _, _, h4, _, h6, h7, h8, h9⟩ := Synthetic.make_ok hm
  obtain ⟨s1, _⟩ := Synthetic.specOK_iff h1
  have him : 0 < a.spec.imageShape.1 ∧ 0 < a.spec.imageShape.2 := by
    simp only [Synthetic.specOK, Bool.and_eq_true, decide_eq_true_eq] at h1
    exact h1.1.1.1.1.1.1.1.1.1.1.1.1.1.1.2
  obtain ⟨w1, w2⟩ := Generate.C71_accepted_partial f32 a.geometry m.geo s1 h8
  obtain ⟨b1, b2, b3, b4, b5, _, _, _, _, _, _, b12⟩ := Geometry.build_ok h8
  have hrx : 0 < m.geo.res.2 := by rw [b12]; exact div_pos (by exact_mod_cast b4) b2
  have hry : 0 < m.geo.res.1 := by rw [b12]; exact div_pos (by exact_mod_cast b3) b1
  have hp : m.pixels = true := by rw [h7] at hpx; simpa using hpx
  have w1' : m.geo.imgOffset.1.toNat + a.spec.imageShape.1 ≤ m.geo.bounds.1.toNat := w1
  have w2' : m.geo.imgOffset.2.toNat + a.spec.imageShape.2 ≤ m.geo.bounds.2.toNat := w2
  obtain ⟨f1, f2, f3⟩ := hf
  exact (Adapter.C58_uniform_partial
    (Adapter.ofGeo a.geometry m.geo m.outShape (m.cfg.batchSize / m.cfg.ndevices) m.pixels) f u v f3 f1 f2 b5 hrx hry hp
    (show 0 < m.geo.bounds.1.toNat by omega) (show 0 < m.geo.bounds.2.toNat by omega)).1

theorem field_uniform {X Z : Nat} {a : Arr ℚ} {f : Adapter.Field2 ℚ} (h : SynthAny.IsField X Z a f) (hX : 0 < X) (hZ : 0 < Z) {u v : ℚ}
    (hc : ∀ j i, j < X → i < Z → a.at? [j, i, 0] = some u ∧ a.at? [j, i, 1] = some v) : Synthetic.UniformField u v f := by
  obtain ⟨h1, h2, h3⟩ := h
  refine ⟨by omega, by omega, fun j i hj hi => ?_⟩
  obtain ⟨e1, e2⟩ := h3 j i (by omega) (by omega)
  obtain ⟨c1, c2⟩ := hc j i (by omega) (by omega)
  rw [c1] at e1
  rw [c2] at e2
  simp only [Option.some.injEq] at e1 e2
  exact Prod.ext e1.symm e2.symm

theorem madeOf_reports {f32 g32 : ℚ → ℚ} {R : Generate.Rand ℚ} {a : Synthetic.Args} {m : Synthetic.Made} (hm : Synthetic.make id f32 a = .ok m)
    (hpx : a.pixels = some true) {X Z n : Nat} (hX : 0 < X) (hZ : 0 < Z) {l : List (String × Arr ℚ)} {u v : ℚ}
    (hl : ∀ q ∈ l, ∀ j i, j < X → i < Z → q.2.at? [j, i, 0] = some u ∧ q.2.at? [j, i, 1] = some v)
    {x : Sampler.OutBatch (Adapter.Field2 ℚ) Synthetic.Pair} (hx : SynthAny.MadeOf (Synthetic.gen id g32 R a m) m.cfg X Z n l x) :
    Reports m.cfg (u * a.resolution * a.spec.dt, v * a.resolution * a.spec.dt) x := by
  intro i f bits hf hb hbit
  obtain ⟨_, h2, h3, _, h5⟩ := hx
  have hi : i < m.cfg.batchSize := by rw [← h2]; exact (List.getElem?_eq_some_iff.1 hf).1
  obtain ⟨f', k1, _, k3, _⟩ := h5 i hi
  rw [hb] at h3
  simp only [Option.some.injEq] at h3
  have hlt : Sampler.flowOf m.cfg.batchSize m.cfg.ndevices m.cfg.ffpb i < l.length := by
    by_contra hge
    rw [h3, List.getElem?_append_right (by simpa using hge)] at hbit
    have := List.mem_of_getElem? hbit
    simp at this
  rw [hf] at k3
  simp only [Option.some.injEq] at k3
  rw [k3]
  have hq := List.getElem?_eq_getElem hlt
  exact adapt_uniform hm hpx (field_uniform (k1 _ hq) hX hZ (hl _ (List.getElem_mem hlt))) g32

/-- What is served reports the uniform flow. -/
theorem forever_reports {E : Env} {s : Make.Smp} {fuel : Nat} {files : List String} {rnd : Bool} {a : Synthetic.Args} {m : Synthetic.Made} {X Z : Nat}
    {content : String → List (Arr ℚ)} (h : ServesForever E s fuel files rnd a m X Z content) (hfl : E.fl = id)
    (hm : Synthetic.make E.fl E.fl32 a = .ok m) (hpx : a.pixels = some true) (hX : 0 < X) (hZ : 0 < Z) {u v : ℚ}
    (hc : ∀ p ∈ files, ∀ b ∈ content p, ∀ j i, j < X → i < Z → b.at? [j, i, 0] = some u ∧ b.at? [j, i, 1] = some v) (N : Nat) :
    ∃ outs, synthRun E fuel (List.replicate N .next) s = some outs ∧ outs.length = N ∧
      ∀ o ∈ outs, ∃ x, o = .batch x ∧ Reports m.cfg (u * a.resolution * a.spec.dt, v * a.resolution * a.spec.dt) x ∧
        x.mask = some (List.replicate m.cfg.ffpb true) ∧ x.flows.length = m.cfg.batchSize := by
  obtain ⟨order, o1, _, o3⟩ := h
  obtain ⟨outs, r1, r2, K, r3, r4⟩ := o3 N
  refine ⟨outs, r1, r2, ?_⟩
  intro o ho
  obtain ⟨n, hn⟩ := List.mem_iff_getElem?.1 ho
  have hlt : n < N := by rw [← r2]; exact (List.getElem?_eq_some_iff.1 hn).1
  obtain ⟨x, x1, x2, _⟩ := r4 n hlt
  rw [hn] at x1
  simp only [Option.some.injEq] at x1
  rw [hfl] at x2 hm
  have hlen : ((((List.range K).flatMap (fun k => SynthAny.fieldsOf content (order k))).drop (n / m.cfg.bpfb * m.cfg.ffpb)).take m.cfg.ffpb).length =
      m.cfg.ffpb := by
    rw [List.length_take, List.length_drop]
    have : (n / m.cfg.bpfb + 1) * m.cfg.ffpb ≤ N * m.cfg.ffpb := Nat.mul_le_mul_right _ (by have := Nat.div_le_self n m.cfg.bpfb; omega)
    rw [Nat.add_mul, Nat.one_mul] at this
    omega
  refine ⟨x, x1, madeOf_reports hm hpx hX hZ ?_ x2, ?_, x2.2.1⟩
  · intro q hq
    have := List.mem_of_mem_drop (List.mem_of_mem_take hq)
    rw [List.mem_flatMap] at this
    obtain ⟨k, _, hk⟩ := this
    unfold SynthAny.fieldsOf at hk
    rw [List.mem_flatMap] at hk
    obtain ⟨p, hp, hk⟩ := hk
    rw [List.mem_map] at hk
    obtain ⟨b, hb, rfl⟩ := hk
    exact hc p ((o1 k).mem_iff.1 hp) b hb
  · rw [x2.2.2.1, hlen, Nat.sub_self, List.replicate_zero, List.append_nil]

theorem resized_constant {io : Formats.MatIO} (hk : KeepsConstants io) {h w : Nat} {u v : ℚ} {V a : Arr ℚ} (hV : Stored h w u v V) {H W : Nat}
    (hr : Resized io H W V a) : Constant H W (u * ((W : ℚ) / w)) (v * ((H : ℚ) / h)) a := by
  obtain ⟨_, _, h', w', us, vs, ru, rv, hh, hw, ⟨c0, k0⟩, ⟨c1, k1⟩, hres, hat⟩ := hr
  obtain ⟨_, hs, hc⟩ := hV
  have hlay : h' = h ∧ w' = w := by
    rcases k0 with ⟨e, _⟩ | ⟨e, hne, _⟩
    · rw [hs] at e
      simp only [List.cons.injEq, and_true] at e
      exact ⟨e.1.symm, e.2.symm⟩
    · rw [hs] at e
      simp only [List.cons.injEq, and_true] at e
      exact absurd e.2.2.symm hne
  obtain ⟨rfl, rfl⟩ := hlay
  have hu : ∀ j i, j < h' → i < w' → us.at? [j, i] = some u := by
    intro j i hj hi
    rcases k0 with ⟨_, e⟩ | ⟨e, hne, _⟩
    · rw [e j i hj hi, (hc j i hj hi).1]
    · rw [hs] at e
      simp only [List.cons.injEq, and_true] at e
      exact absurd e.2.2.symm hne
  have hv : ∀ j i, j < h' → i < w' → vs.at? [j, i] = some v := by
    intro j i hj hi
    rcases k1 with ⟨_, e⟩ | ⟨e, hne, _⟩
    · rw [e j i hj hi, (hc j i hj hi).2]
    · rw [hs] at e
      simp only [List.cons.injEq, and_true] at e
      exact absurd e.2.2.symm hne
  have hru : ∀ j i, j < H → i < W → ru.at? [j, i] = some u ∧ rv.at? [j, i] = some v := by
    intro j i hj hi
    split at hres
    · rename_i he
      simp only [Prod.mk.injEq] at he
      rw [hres.1, hres.2]
      exact ⟨hu j i (by omega) (by omega), hv j i (by omega) (by omega)⟩
    · exact ⟨hk _ _ _ _ _ _ _ c0 hh hw hu hres.1 j i hj hi, hk _ _ _ _ _ _ _ c1 hh hw hv hres.2 j i hj hi⟩
  intro j i hj hi
  obtain ⟨a1, a2⟩ := hat j i hj hi
  obtain ⟨r1, r2⟩ := hru j i hj hi
  rw [a1, a2, r1, r2]
  exact ⟨rfl, rfl⟩

/-! ## C117 -/

/-- **C117** for NumPy files: if the flow is `(u, v)` everywhere in every file that can be read, the flow reported in every batch is
`(u, v)` times pixels per unit of length times `dt`, whatever the grid. -/
theorem C117_npy (E : Env) (hfl : E.fl = id) (arg : Make.Arg) (d : Make.Dict) (hd : Make.Spec.ConfigOf (world E) arg d) (s : Make.Smp)
    (h : Make.make (world E) arg = .ok s) (hp : Plain d .npy false) (hl : Make.Spec.ValueOr d "loop" (.bool true) (.bool true)) :
    ∃ files rnd a m, FilesOf E .npy d files ∧ Make.Spec.ValueOr d "randomize" (.bool false) (.bool rnd) ∧ Configured E d a ∧
      Synthetic.make E.fl E.fl32 a = .ok m ∧
      ∀ X Z C content u v, NpContents E.np X Z C files content → 2 ≤ C → 0 < X → 0 < Z → files.Nodup →
        (rnd = true → ∀ k n, (E.perm k n).Perm (List.range n)) → a.ndevices ∣ m.cfg.ffpb → SynthAny.fieldsOf content files ≠ [] →
        a.pixels = some true → (∀ p ∈ files, ∀ b ∈ content p, Constant X Z u v b) → ∀ fuel, 2 * files.length ≤ fuel → ∀ N,
        ∃ outs, synthRun E fuel (List.replicate N .next) s = some outs ∧ outs.length = N ∧
          ∀ o ∈ outs, ∃ x, o = .batch x ∧ Reports m.cfg (u * a.resolution * a.spec.dt, v * a.resolution * a.spec.dt) x ∧
            x.mask = some (List.replicate m.cfg.ffpb true) ∧ x.flows.length = m.cfg.batchSize := by
  obtain ⟨files, rnd, lp, a, m, f1, f2, f3, f4, f5, _, f6⟩ := C116_npy E arg d hd s h hp
  refine ⟨files, rnd, a, m, f1, f2, f4, f5, ?_⟩
  intro X Z C content u v hc hC hX hZ hnd hrnd hdv hne hpx hu fuel hfuel N
  have hlp : lp = true := by have := valueOr_unique f3 hl; injection this
  obtain ⟨_, g, _⟩ := f6 X Z C content hc hC hnd hrnd hdv
  exact forever_reports (g hlp hne fuel hfuel) hfl f5 hpx hX hZ hu N

/-- **C117** for HDF5 files: likewise, if every `y`-slice of every file that can be read is `(u, v)` everywhere. -/
theorem C117_h5 (E : Env) (hfl : E.fl = id) (arg : Make.Arg) (d : Make.Dict) (hd : Make.Spec.ConfigOf (world E) arg d) (s : Make.Smp)
    (h : Make.make (world E) arg = .ok s) (hp : Plain d .h5 false) (hl : Make.Spec.ValueOr d "loop" (.bool true) (.bool true)) :
    ∃ files rnd a m, FilesOf E .h5 d files ∧ Make.Spec.ValueOr d "randomize" (.bool false) (.bool rnd) ∧ Configured E d a ∧
      Synthetic.make E.fl E.fl32 a = .ok m ∧
      ∀ X Z C content u v, SynthPipeline.Contents E.h5 X Z C files content → 2 ≤ C → 0 < X → 0 < Z → files.Nodup →
        (rnd = true → ∀ k n, (E.perm k n).Perm (List.range n)) → a.ndevices ∣ m.cfg.ffpb → SynthPipeline.fieldsOf content files ≠ [] →
        a.pixels = some true →
        (∀ p ∈ files, ∀ vol, content p = some vol → ∀ j y i, j < X → y < vol.shape.getD 1 0 → i < Z →
          vol.at? [j, y, i, 0] = some u ∧ vol.at? [j, y, i, 1] = some v) → ∀ fuel, 2 * files.length ≤ fuel → ∀ N,
        ∃ outs, synthRun E fuel (List.replicate N .next) s = some outs ∧ outs.length = N ∧
          ∀ o ∈ outs, ∃ x, o = .batch x ∧ Reports m.cfg (u * a.resolution * a.spec.dt, v * a.resolution * a.spec.dt) x ∧
            x.mask = some (List.replicate m.cfg.ffpb true) ∧ x.flows.length = m.cfg.batchSize := by
  obtain ⟨files, rnd, a, m, f1, f2, f4, f5, _, f6⟩ := C110_h5_looping E arg d hd s h hp hl
  refine ⟨files, rnd, a, m, f1, f2, f4, f5, ?_⟩
  intro X Z C content u v hc hC hX hZ hnd hrnd hdv hne hpx hu fuel hfuel N
  obtain ⟨_, order, o1, _, o3⟩ := f6 X Z C content hc hC hne hnd hrnd hdv fuel hfuel
  obtain ⟨outs, r1, r2, K, r3, r4⟩ := o3 N
  refine ⟨outs, r1, r2, ?_⟩
  intro o ho
  obtain ⟨n, hn⟩ := List.mem_iff_getElem?.1 ho
  have hlt : n < N := by rw [← r2]; exact (List.getElem?_eq_some_iff.1 hn).1
  obtain ⟨x, x1, x2, _⟩ := r4 n hlt
  rw [hn] at x1
  simp only [Option.some.injEq] at x1
  rw [hfl] at x2 f5
  generalize hL : (((List.range K).flatMap (fun k => SynthPipeline.fieldsOf content (order k))).drop (n / m.cfg.bpfb * m.cfg.ffpb)).take m.cfg.ffpb = l at x2
  have hlen : l.length = m.cfg.ffpb := by
    rw [← hL, List.length_take, List.length_drop]
    have : (n / m.cfg.bpfb + 1) * m.cfg.ffpb ≤ N * m.cfg.ffpb := Nat.mul_le_mul_right _ (by have := Nat.div_le_self n m.cfg.bpfb; omega)
    rw [Nat.add_mul, Nat.one_mul] at this
    omega
  have hmem : ∀ q ∈ l, q.1 ∈ files ∧ ∀ vol, content q.1 = some vol → q.2 < vol.shape.getD 1 0 := by
    intro q hq
    rw [← hL] at hq
    have := List.mem_of_mem_drop (List.mem_of_mem_take hq)
    rw [List.mem_flatMap] at this
    obtain ⟨k, _, hk⟩ := this
    unfold SynthPipeline.fieldsOf at hk
    rw [List.mem_flatMap] at hk
    obtain ⟨p, hp, hk⟩ := hk
    cases hv : content p with
    | none => rw [hv] at hk; cases hk
    | some vol =>
      rw [hv] at hk
      simp only [List.mem_map, List.mem_range] at hk
      obtain ⟨y, hy, rfl⟩ := hk
      refine ⟨(o1 k).mem_iff.1 hp, ?_⟩
      intro vol' hv'
      rw [hv] at hv'
      cases hv'
      exact hy
  obtain ⟨_, h2, h3, _, h5⟩ := x2
  refine ⟨x, x1, ?_, by rw [h3, hlen, Nat.sub_self, List.replicate_zero, List.append_nil], h2⟩
  intro i f bits hf hb hbit
  have hi : i < m.cfg.batchSize := by rw [← h2]; exact (List.getElem?_eq_some_iff.1 hf).1
  obtain ⟨f', k1, _, k3, _⟩ := h5 i hi
  rw [hb] at h3
  simp only [Option.some.injEq] at h3
  have hlt' : Sampler.flowOf m.cfg.batchSize m.cfg.ndevices m.cfg.ffpb i < l.length := by
    by_contra hge
    rw [h3, List.getElem?_append_right (by simpa using hge)] at hbit
    have := List.mem_of_getElem? hbit
    simp at this
  rw [hf] at k3
  simp only [Option.some.injEq] at k3
  rw [k3]
  have hq := List.getElem?_eq_getElem hlt'
  obtain ⟨vol, v1, v2, v3, v4⟩ := k1 _ hq
  obtain ⟨m1, m2⟩ := hmem _ (List.getElem_mem hlt')
  refine adapt_uniform f5 hpx ⟨by omega, by omega, fun j i hj hi => ?_⟩ E.fl32
  obtain ⟨e1, e2⟩ := v4 j i (by omega) (by omega)
  obtain ⟨c1, c2⟩ := hu _ m1 vol v1 j _ i (by omega) (m2 vol v1) (by omega)
  rw [c1] at e1
  rw [c2] at e2
  simp only [Option.some.injEq] at e1 e2
  exact Prod.ext e1.symm e2.symm

/-- What is reported for MAT files: if the flow stored is `(u, v)` everywhere on a grid of `h` rows and `w` columns, it is `u` times 256 over
`w` and `v` times 256 over `h`, times pixels per unit of length times `dt`. -/
theorem C117_mat_scaled (E : Env) (hfl : E.fl = id) (arg : Make.Arg) (d : Make.Dict) (hd : Make.Spec.ConfigOf (world E) arg d) (s : Make.Smp)
    (h : Make.make (world E) arg = .ok s) (hp : Plain d .mat false) (hl : Make.Spec.ValueOr d "loop" (.bool true) (.bool true))
    (hpil : Formats.PilOK E.mat) (hk : KeepsConstants E.mat) :
    ∃ files rnd a m, FilesOf E .mat d files ∧ Make.Spec.ValueOr d "randomize" (.bool false) (.bool rnd) ∧ Configured E d a ∧
      Synthetic.make E.fl E.fl32 a = .ok m ∧
      ∀ r c u v, 0 < r → 0 < c → (∀ p ∈ files, ∃ data V, Formats.matRead E.mat p = .ok data ∧ data.lookup "V" = some V ∧ Stored r c u v V) →
        files.Nodup → (rnd = true → ∀ k n, (E.perm k n).Perm (List.range n)) → a.ndevices ∣ m.cfg.ffpb →
        a.pixels = some true → ∀ fuel, 2 * files.length ≤ fuel → ∀ N,
        ∃ outs, synthRun E fuel (List.replicate N .next) s = some outs ∧ outs.length = N ∧
          ∀ o ∈ outs, ∃ x, o = .batch x ∧
            Reports m.cfg (u * (256 / (c : ℚ)) * a.resolution * a.spec.dt, v * (256 / (r : ℚ)) * a.resolution * a.spec.dt) x ∧
            x.mask = some (List.replicate m.cfg.ffpb true) ∧ x.flows.length = m.cfg.batchSize := by
  obtain ⟨files, rnd, lp, a, m, f1, f2, f3, f4, f5, _, _, f6⟩ := C116_mat E arg d hd s h hp hpil
  refine ⟨files, rnd, a, m, f1, f2, f4, f5, ?_⟩
  intro r c u v hr hc hst hnd hrnd hdv hpx fuel hfuel N
  have hlp : lp = true := by have := valueOr_unique f3 hl; injection this
  have ho : Ordinary E.mat files := by
    intro p hp data V h1 h2
    obtain ⟨data', V', g1, g2, g3⟩ := hst p hp
    rw [g1] at h1
    cases h1
    rw [g2] at h2
    cases h2
    exact ⟨g3.1, by rw [g3.2.1]; simp⟩
  obtain ⟨content, hcont, g⟩ := f6 ho
  obtain ⟨g, _⟩ := g hnd hrnd hdv
  have hcon : ∀ p ∈ files, ∃ b, content p = [b] ∧ Constant 256 256 (u * (256 / (c : ℚ))) (v * (256 / (r : ℚ))) b := by
    intro p hp
    obtain ⟨data', V', g1, g2, g3⟩ := hst p hp
    rcases hcont p hp with ⟨data, V, b, e, h1, h2, h3⟩ | ⟨_, h1⟩
    · rw [g1] at h1
      cases h1
      rw [g2] at h2
      cases h2
      exact ⟨b, e, resized_constant hk g3 h3⟩
    · exact absurd ⟨r, c, .inl g3.2.1, hr, hc⟩ (h1 data' V' g1 g2)
  have hne : SynthAny.fieldsOf content files ≠ [] := by
    have hfe := f1.choose_spec.2.2.1
    obtain ⟨p, l, rfl⟩ := List.exists_cons_of_ne_nil hfe
    obtain ⟨b, e, _⟩ := hcon p (by simp)
    simp [SynthAny.fieldsOf, e]
  refine forever_reports (g hlp hne fuel hfuel) hfl f5 hpx (by omega) (by omega) ?_ N
  intro p hp b hb
  obtain ⟨b', e, hc'⟩ := hcon p hp
  rw [e, List.mem_singleton] at hb
  rw [hb]
  exact hc'

/-- **C117** for MAT files (partial): the flow reported is `(u, v)` times pixels per unit of length times `dt` if the files have
256 x 256 vectors. Missing: other grids, for which it is false (`C117_mat_refuted`). -/
theorem C117_mat_partial (E : Env) (hfl : E.fl = id) (arg : Make.Arg) (d : Make.Dict) (hd : Make.Spec.ConfigOf (world E) arg d) (s : Make.Smp)
    (h : Make.make (world E) arg = .ok s) (hp : Plain d .mat false) (hl : Make.Spec.ValueOr d "loop" (.bool true) (.bool true))
    (hpil : Formats.PilOK E.mat) (hk : KeepsConstants E.mat) :
    ∃ files rnd a m, FilesOf E .mat d files ∧ Make.Spec.ValueOr d "randomize" (.bool false) (.bool rnd) ∧ Configured E d a ∧
      Synthetic.make E.fl E.fl32 a = .ok m ∧
      ∀ u v, (∀ p ∈ files, ∃ data V, Formats.matRead E.mat p = .ok data ∧ data.lookup "V" = some V ∧ Stored 256 256 u v V) →
        files.Nodup → (rnd = true → ∀ k n, (E.perm k n).Perm (List.range n)) → a.ndevices ∣ m.cfg.ffpb →
        a.pixels = some true → ∀ fuel, 2 * files.length ≤ fuel → ∀ N,
        ∃ outs, synthRun E fuel (List.replicate N .next) s = some outs ∧ outs.length = N ∧
          ∀ o ∈ outs, ∃ x, o = .batch x ∧ Reports m.cfg (u * a.resolution * a.spec.dt, v * a.resolution * a.spec.dt) x ∧
            x.mask = some (List.replicate m.cfg.ffpb true) ∧ x.flows.length = m.cfg.batchSize := by
  obtain ⟨files, rnd, a, m, f1, f2, f3, f4, f5⟩ := C117_mat_scaled E hfl arg d hd s h hp hl hpil hk
  refine ⟨files, rnd, a, m, f1, f2, f3, f4, fun u v hst hnd hrnd hdv hpx fuel hfuel N => ?_⟩
  have := f5 256 256 u v (by omega) (by omega) hst hnd hrnd hdv hpx fuel hfuel N
  rw [show u * (256 / ((256 : Nat) : ℚ)) = u by norm_num, show v * (256 / ((256 : Nat) : ℚ)) = v by norm_num] at this
  exact this

theorem isNum_one {q : ℚ} (h : IsNum q (.int 1)) : q = 1 := by
  have h' : some (Num.fin ((1 : Int) : ℚ)) = some (Num.fin q) := h
  simpa using h'.symm

/-- One MAT file, with 512 x 1024 vectors `(1, 1)`. -/
def demoWide : Env := { demoFiles with devices := 1 }

/-- A configuration for synthetic images from it, with one pixel per unit of length and one unit of time between the images. -/
def demoWideDict : Make.Dict :=
  [("scheduler_class", .str ".mat"), ("file_list", .list [.str "a.mat"])] ++
    demoDict.filter (fun q => q.1 != "scheduler_class" && q.1 != "file_list")

theorem zeros_at (c : ℚ) {sh idx : List Nat} {k : Nat} (h : Arr.offset sh idx = some k) : (Arr.zeros c sh).at? idx = some c := by
  have hk := Arr.offset_lt h
  unfold Arr.at? Arr.zeros
  simp [h, hk]

theorem zeros_at2 (c : ℚ) {h w j i : Nat} (hj : j < h) (hi : i < w) : (Arr.zeros c [h, w]).at? [j, i] = some c :=
  zeros_at c (k := j * Arr.size [w] + (i * Arr.size [] + 0)) (by simp [Arr.offset, hj, hi])

theorem zeros_at3 (c : ℚ) {h w k j i l : Nat} (hj : j < h) (hi : i < w) (hl : l < k) : (Arr.zeros c [h, w, k]).at? [j, i, l] = some c :=
  zeros_at c (k := j * Arr.size [w, k] + (i * Arr.size [k] + (l * Arr.size [] + 0))) (by simp [Arr.offset, hj, hi, hl])

theorem demoResize_keeps : KeepsConstants demoWide.mat := by
  intro a r h w H W c hs hh hw hc hr j i hj hi
  have hr' : r = Arr.zeros (a.data.headD 0) [H, W] := by
    have : demoResize a W H = .ok r := hr
    simpa [demoResize] using this.symm
  have h0 := hc 0 0 hh hw
  have : a.data.headD 0 = c := by
    unfold Arr.at? at h0
    rw [hs] at h0
    simp only [Arr.offset, hh, hw, if_true, Option.map_some, Option.bind_some] at h0
    cases hd : a.data with
    | nil => rw [hd] at h0; simp at h0
    | cons x l => rw [hd] at h0; simpa using h0
  rw [hr', this]
  exact zeros_at2 c hj hi

/-- The hypotheses of `C117_npy` are met: one file with the flow `(1, 1)`. -/
example : (Make.make (world demoFiles) (.dict (("file_list", .list [.str "flow_1.npy"]) :: ("loop", .bool true) :: demoNpyDict))).isOk = true ∧
    NpContents demoFiles.np 12 12 2 ["flow_1.npy"] (fun _ => [Arr.zeros 1 [12, 12, 2]]) ∧ Constant 12 12 1 1 (Arr.zeros 1 [12, 12, 2]) := by
  refine ⟨by decide +kernel, ?_, fun j i hj hi => ⟨zeros_at3 1 hj hi (by omega), zeros_at3 1 hj hi (by omega)⟩⟩
  intro p hp
  rw [List.mem_singleton] at hp
  subst hp
  exact .inl ⟨_, rfl, rfl, rfl, by simp [Arr.WF, Arr.zeros]⟩

/-- Those of `C117_h5` on the contents of the files: a volume `(1, 1)` with five slices. -/
example : ∀ j y i, j < 12 → y < 5 → i < 12 → (Arr.zeros (1 : ℚ) [12, 5, 12, 2]).at? [j, y, i, 0] = some 1 ∧ (Arr.zeros (1 : ℚ) [12, 5, 12, 2]).at? [j, y, i, 1] = some 1 := by
  intro j y i hj hy hi
  constructor <;> exact zeros_at 1 (by simp [Arr.offset, hj, hy, hi]; rfl)

/-- **C117** is false for MAT files: a flow of one pixel per time step in both directions, on a grid of 512 rows and 1024 columns, is reported as a quarter
of a pixel to the right and half a pixel down. -/
theorem C117_mat_refuted : ∃ s a outs x f, Make.make (world demoWide) (.dict demoWideDict) = .ok s ∧
    Formats.matRead demoWide.mat "a.mat" = .ok [("V", Arr.zeros 1 [512, 1024, 2])] ∧ FilesOf demoWide .mat demoWideDict ["a.mat"] ∧
    Configured demoWide demoWideDict a ∧ a.resolution = 1 ∧ a.spec.dt = 1 ∧ a.pixels = some true ∧
    synthRun demoWide 2 [.next] s = some outs ∧ .batch x ∈ outs ∧ f ∈ x.flows ∧ ∀ j i, f.at_ j i = (1 / 4, 1 / 2) := by
  have hok : (Make.make (world demoWide) (.dict demoWideDict)).isOk = true := by decide +kernel
  cases hs : Make.make (world demoWide) (.dict demoWideDict) with
  | error e => rw [hs] at hok; cases hok
  | ok s =>
    have hp : Plain demoWideDict .mat false := ⟨rfl, .inl ⟨rfl, rfl⟩, ⟨by decide, .inl ⟨rfl, rfl⟩⟩, ⟨by decide, .inl ⟨rfl, rfl⟩⟩⟩
    obtain ⟨files, rnd, a, m, f1, f2, f3, f4, f5⟩ := C117_mat_scaled demoWide rfl (.dict demoWideDict) demoWideDict rfl s hs hp (.inl ⟨rfl, rfl⟩)
      demoFiles_pil demoResize_keeps
    have hfiles : files = ["a.mat"] := by
      obtain ⟨paths, p1, p2, _, _⟩ := f1
      have p1' : some (Val.list [.str "a.mat"]) = some (.list (paths.map .str)) := p1
      simp only [Option.some.injEq, Val.list.injEq] at p1'
      obtain ⟨p, rfl, hp⟩ : ∃ p, paths = [p] ∧ p = "a.mat" := by
        match paths, p1' with
        | [p], e => exact ⟨p, rfl, by simpa using e.symm⟩
      subst hp
      cases p2 with
      | file h t => cases t; rfl
      | dir found h hperm hsorted t => cases h
    subst hfiles
    have hdev : a.ndevices = 1 := by
      obtain ⟨v, v1, v2⟩ := f3.devices
      have hv : v = .none := by
        rcases v1 with ⟨_, e⟩ | e
        · exact e
        · have : demoWideDict.lookup "device_ids" = none := rfl
          rw [this] at e
          cases e
      subst hv
      rcases v2 with ⟨_, e⟩ | ⟨_, _, e, _⟩
      · exact e
      · rcases e with e | e <;> cases e
    have hres : a.resolution = 1 := by
      obtain ⟨v, v1, v2⟩ := f3.resolution
      cases v1
      exact isNum_one v2
    have hdt : a.spec.dt = 1 := by
      obtain ⟨v, v1, v2⟩ := f3.dt
      cases v1
      exact isNum_one v2
    have hpx : a.pixels = some true := by
      rcases f3.units with ⟨e, _⟩ | ⟨_, e⟩
      · exact e
      · simp [demoWideDict, demoDict, List.lookup] at e
    obtain ⟨outs, o1, o2, o3⟩ := f5 512 1024 1 1 (by omega) (by omega)
      (by
        intro p hp
        rw [List.mem_singleton] at hp
        subst hp
        exact ⟨_, _, rfl, rfl, by simp [Arr.WF, Arr.zeros], rfl, fun j i hj hi => ⟨zeros_at3 1 hj hi (by omega), zeros_at3 1 hj hi (by omega)⟩⟩)
      (by simp) (fun _ _ _ => List.Perm.refl _) (by rw [hdev]; exact Nat.one_dvd _) hpx 2 (by simp) 1
    have hmem : outs[0]'(by omega) ∈ outs := List.getElem_mem _
    obtain ⟨x, x1, x2, x3, x4⟩ := o3 _ hmem
    obtain ⟨_, _, _, g4, _⟩ := Synthetic.make_ok f4
    have hokc := Sampler.Cfg.ok_of_make g4
    have hpos : 0 < x.flows.length := by
      rw [x4]
      obtain ⟨_, c2, c3, _⟩ := Sampler.C38_least_multiple _ _ _ _ _ _ _ g4
      obtain ⟨v, v1, v2⟩ := f3.batchSize
      cases v1
      have v2' : some (3 : Int) = some (a.spec.batchSize : Int) := v2
      simp only [Option.some.injEq] at v2'
      omega
    refine ⟨s, a, outs, x, x.flows[0], rfl, rfl, f1, f3, hres, hdt, hpx, o1, by rw [← x1]; exact hmem, List.getElem_mem _, ?_⟩
    have := x2 0 _ _ (List.getElem?_eq_getElem hpos) x3 (by
      rw [List.getElem?_replicate, if_pos (Sampler.flowOf_lt hokc.dev hokc.dvd (by rw [(Sampler.C38_least_multiple _ _ _ _ _ _ _ g4).1, hdev]; exact Nat.mod_one _)
        hokc.ffpb (by rw [← x4]; exact hpos))])
    intro j i
    rw [this j i, hres, hdt]
    norm_num

end Verif.Whole
