import Verif.Proofs.Whole
import Verif.Props.SynthPipeline
import Verif.Props.RealPipeline
/-!
# Properties C110, C111: from the configuration to the batches
-/

namespace Verif.Whole
open Verif Verif.Whole.Spec

/-! ## What `make` builds -/

/-- The steps of a successful `make`, with or without episodes and buffer. -/
theorem make_steps_any {E : Env} {arg : Make.Arg} {d : Make.Dict} {s : Make.Smp} (hd : Make.Spec.ConfigOf (world E) arg d)
    (h : Make.make (world E) arg = .ok s) {kind : Make.Kind} {images : Bool} {len buf : Int}
    (hcls : d.lookup "scheduler_class" = some (.str (Make.Spec.ext kind)))
    (himg : Make.Spec.ValueOr d "include_images" (.bool false) (.bool images)) (hlen0 : Make.Spec.NatOption d "episode_length" len)
    (hbuf0 : Make.Spec.NatOption d "buffer_size" buf) :
    ∃ b, ∃ root : KeyTerm, ∃ shape q p, 0 < b ∧ Has d "batch_size" (IsInt b) ∧ (images = true → kind = .mat) ∧
      (if images then Make.andThen (Make.toTuple (Make.getD d "image_shape" (.tuple [.int 256, .int 256]))) fun t => .ok (some t)
            else .ok none) = Except.ok (ε := Exc) shape ∧
      buildBase E (Make.baseFromConfig kind
        { fileList := Make.getD d "file_list" (.list []), randomize := Make.getD d "randomize" (.bool false),
          loop := Make.getD d "loop" (.bool true), key := root.split2.2, includeImages := images, outputShape := shape }) = .ok q ∧
      Make.withEpisodes (world E) b len root.split2.1 (.base (Make.baseFromConfig kind
        { fileList := Make.getD d "file_list" (.list []), randomize := Make.getD d "randomize" (.bool false),
          loop := Make.getD d "loop" (.bool true), key := root.split2.2, includeImages := images, outputShape := shape })) = .ok p ∧
      Make.finish (world E) d images b len (Make.withPrefetch b buf p) = .ok s := by
  have hf : Make.fromDict (world E) d = .ok s := by
    cases arg with
    | other => cases h
    | dict d' => cases hd; exact h
    | path f =>
      obtain ⟨h1, h2, h3, h4⟩ := hd
      simp only [Make.make, h1, h2, h3, h4] at h
      exact h
  unfold Make.fromDict at hf
  rw [hcls] at hf
  dsimp only at hf
  rw [Make.andThen_ok] at hf
  obtain ⟨kind', hk, hf⟩ := hf
  have hkind : kind' = kind := by cases kind <;> cases hk <;> rfl
  subst hkind
  split at hf
  · cases hf
  rename_i bs hbs
  split at hf
  · cases hf
  rename_i b hb
  rw [Make.raiseIf_ok] at hf
  obtain ⟨hb0, hf⟩ := hf
  have hi : Make.getD d "include_images" (.bool false) = .bool images := by
    rcases himg with ⟨h1, h2⟩ | h1
    · unfold Make.getD; rw [h1]; exact h2.symm
    · unfold Make.getD; rw [h1]; rfl
  rw [hi] at hf
  simp only [Make.andThen_ok, Make.raiseIf_ok] at hf
  obtain ⟨buf, hbuf, len, hlen, hff, root, hroot, hmat, shape, hshape, u, hu, p, hpp, hfin⟩ := hf
  rw [Make.sizeOption_ok.2 hlen0] at hlen
  rw [Make.sizeOption_ok.2 hbuf0] at hbuf
  cases hlen
  cases hbuf
  have hsplit : (world E).baseInit (Make.baseFromConfig kind'
        { fileList := Make.getD d "file_list" (.list []), randomize := Make.getD d "randomize" (.bool false),
          loop := Make.getD d "loop" (.bool true), key := root.split2.2, includeImages := images, outputShape := shape }) = .ok u := hu
  simp only [world] at hsplit
  split at hsplit
  · rename_i q hq
    refine ⟨b, root, shape, q, p, by simpa using hb0, ⟨bs, hbs, hb⟩, ?_, ?_, hq, hpp, hfin⟩
    · intro hi; subst hi; simpa using hmat
    · cases images
      · simpa using hshape
      · simpa [Make.andThen_ok, Make.andThen] using hshape
  · cases hsplit

/-- The steps of a successful `make`. -/
theorem make_steps {E : Env} {arg : Make.Arg} {d : Make.Dict} {s : Make.Smp} (hd : Make.Spec.ConfigOf (world E) arg d)
    (h : Make.make (world E) arg = .ok s) {kind : Make.Kind} {images : Bool} (hp : Plain d kind images) :
    ∃ b root shape q, 0 < b ∧ Has d "batch_size" (IsInt b) ∧ (images = true → kind = .mat) ∧
      (if images then Make.andThen (Make.toTuple (Make.getD d "image_shape" (.tuple [.int 256, .int 256]))) fun t => .ok (some t)
            else .ok none) = Except.ok (ε := Exc) shape ∧
      buildBase E (Make.baseFromConfig kind
        { fileList := Make.getD d "file_list" (.list []), randomize := Make.getD d "randomize" (.bool false),
          loop := Make.getD d "loop" (.bool true), key := root, includeImages := images, outputShape := shape }) = .ok q ∧
      Make.finish (world E) d images b 0 (.base (Make.baseFromConfig kind
        { fileList := Make.getD d "file_list" (.list []), randomize := Make.getD d "randomize" (.bool false),
          loop := Make.getD d "loop" (.bool true), key := root, includeImages := images, outputShape := shape })) = .ok s := by
  obtain ⟨b, root, shape, q, p, h1, h2, h3, h4, h5, h6, h7⟩ := make_steps_any hd h hp.schedulerClass hp.includeImages hp.noEpisodes hp.noBuffer
  cases h6
  exact ⟨b, root.split2.2, shape, q, h1, h2, h3, h4, h5, h7⟩

/-- The files and flags of an HDF5 scheduler. -/
theorem h5_files {E : Env} {d : Make.Dict} {root : KeyTerm} {shape : Option Val} {fl : List String} {c : Base.Cfg}
    (h : buildBase E (Make.baseFromConfig .h5
        { fileList := Make.getD d "file_list" (.list []), randomize := Make.getD d "randomize" (.bool false),
          loop := Make.getD d "loop" (.bool true), key := root, includeImages := false, outputShape := shape }) = .ok (fl, c)) :
    FilesOf E .h5 d fl ∧ Make.Spec.ValueOr d "randomize" (.bool false) (.bool c.randomize) ∧
      Make.Spec.ValueOr d "loop" (.bool true) (.bool c.loop) := by
  unfold buildBase at h
  simp only [Make.baseFromConfig] at h
  split at h
  · rename_i q hq
    cases h
    obtain ⟨h1, h2, l, h3, h4, h5, h6, _⟩ := ((FormatInit.C86_hdf5_constructor_partial _ _ _ _).1 q.1 q.2.1 q.2.2).mp hq
    have h3' := baseVal_list h3
    refine ⟨⟨l, ?_, h4, h5, h6⟩, ?_, ?_⟩
    · rcases Make.getD_valueOr d "file_list" (.list []) with ⟨_, g⟩ | g
      · rw [h3'] at g
        simp only [Val.list.injEq, List.map_eq_nil_iff] at g
        subst g
        generalize q.1 = fl at h4 h5
        cases h4
        exact absurd rfl h5
      · rw [h3'] at g; exact g
    · have := Make.getD_valueOr d "randomize" (.bool false)
      rwa [baseVal_bool h1] at this
    · have := Make.getD_valueOr d "loop" (.bool true)
      rwa [baseVal_bool h2] at this
  · cases h

theorem valueOr_unique {d : Make.Dict} {k : String} {dflt v v' : Val} (h : Make.Spec.ValueOr d k dflt v) (h' : Make.Spec.ValueOr d k dflt v') :
    v = v' := by
  rcases h with ⟨h1, h2⟩ | h1 <;> rcases h' with ⟨h3, h4⟩ | h3
  · rw [h2, h4]
  · rw [h1] at h3; cases h3
  · rw [h1] at h3; cases h3
  · rw [h1] at h3; cases h3; rfl

theorem sizes_of_make {fl fl32 : ℚ → ℚ} {a : Synthetic.Args} {m : Synthetic.Made} (h : Synthetic.make fl fl32 a = .ok m)
    (he : a.isEpisodic = false) : Sizes a m.cfg := by
  obtain ⟨_, _, _, h4, _⟩ := Synthetic.make_ok h
  obtain ⟨c1, c2, c3, c4⟩ := Sampler.C38_least_multiple _ _ _ _ _ _ _ h4
  obtain ⟨g1, g2, g3, g4, g5, g6, g7⟩ := Sampler.Cfg.make_ok h4
  rw [he] at g7
  refine ⟨by rw [g7], c2, by omega, fun n h1 h2 => c4 n h1 (by omega), ?_, ?_, ?_⟩ <;> rw [g7] <;> simp <;> omega

theorem maskValues {E : Env} {d : Make.Dict} {a : Synthetic.Args} (h : Configured E d a) : Synthetic.MaskValues a := by
  intro m hm j i
  obtain ⟨v, _, hv⟩ := h.mask
  rcases hv with ⟨_, hn⟩ | ⟨p, hh, w, data, _, _, _, h01, hs⟩
  · rw [hn] at hm; cases hm
  · rw [hs] at hm
    cases hm
    dsimp only
    rcases Nat.lt_or_ge (j * w + i) data.length with hlt | hge
    · rw [List.getD_eq_getElem _ _ hlt]
      rcases h01 _ (List.getElem_mem hlt) with e | e <;> rw [e] <;> norm_num
    · rw [List.getD_eq_default _ _ hge]; norm_num

/-- What `make` builds for synthetic images from HDF5 files. -/
theorem h5_built {E : Env} {arg : Make.Arg} {d : Make.Dict} {s : Make.Smp} (hd : Make.Spec.ConfigOf (world E) arg d)
    (h : Make.make (world E) arg = .ok s) (hp : Plain d .h5 false) :
    ∃ files c a m, FilesOf E .h5 d files ∧ Make.Spec.ValueOr d "randomize" (.bool false) (.bool c.randomize) ∧
      Make.Spec.ValueOr d "loop" (.bool true) (.bool c.loop) ∧ Configured E d a ∧ Synthetic.make E.fl E.fl32 a = .ok m ∧ a.isEpisodic = false ∧
      (∀ fuel ops, synthRun E fuel ops s = runOn E (h5World E) fuel a m c files (.seed 0) ops) ∧
      Formats.h5Shape (E.h5 ((Base.shuffle (h5World E) c files (.seed 0)).1.headD "")) = .ok [a.flowShape.1, a.flowShape.2, a.channels] := by
  obtain ⟨b, root, shape, ⟨files, c⟩, _, _, _, _, hb, hfin⟩ := make_steps hd h hp
  obtain ⟨f1, f2, f3⟩ := h5_files hb
  unfold Make.finish at hfin
  rw [if_neg (by decide)] at hfin
  split at hfin
  · cases hfin
  rw [if_neg (by decide)] at hfin
  simp only [Make.andThen_ok] at hfin
  obtain ⟨_, _, hfin⟩ := hfin
  obtain ⟨sa, a, m, hs, h1, h2, h3, h4, h5⟩ := synth_configured hfin
  refine ⟨files, c, a, m, f1, f2, f3, h3, h2, h5, ?_, ?_⟩
  · intro fuel ops
    rw [hs]
    simp only [synthRun]
    rw [hb, h1]
    rfl
  · unfold threeOf at h4
    split at h4
    · rename_i x y z he
      simp only [Option.some.injEq, Prod.mk.injEq] at h4
      obtain ⟨h4, h6⟩ := h4
      rw [← h4, ← h6]
      simp only [pipeShape, flowShape] at he
      rw [hb] at he
      exact he
    · cases h4

/-- The grid of the flow fields is that of the files. -/
theorem h5_grid {E : Env} {X Z C : Nat} {files : List String} {content : String → Option (Arr ℚ)}
    (hc : SynthPipeline.Contents E.h5 X Z C files content) {c : Base.Cfg} (hrnd : c.randomize = true → ∀ k n, (E.perm k n).Perm (List.range n))
    (hne : files ≠ []) {sh : List Nat} (h : Formats.h5Shape (E.h5 ((Base.shuffle (h5World E) c files (.seed 0)).1.headD "")) = .ok sh) :
    sh = [X, Z, 2] := by
  have hperm : (Base.shuffle (h5World E) c files (.seed 0)).1.Perm files := Base.shuffle_perm (w := h5World E) hrnd files (.seed 0)
  have hmem : (Base.shuffle (h5World E) c files (.seed 0)).1.headD "" ∈ files := by
    rw [← hperm.mem_iff]
    cases hl : (Base.shuffle (h5World E) c files (.seed 0)).1 with
    | nil => rw [hl] at hperm; exact absurd hperm.symm.eq_nil hne
    | cons p l => simp
  have hh := hc _ hmem
  generalize (Base.shuffle (h5World E) c files (.seed 0)).1.headD "" = p at h hh
  cases hcont : content p with
  | none =>
    rw [hcont] at hh
    dsimp only at hh
    unfold Formats.h5Shape Formats.h5Load at h
    cases hf : E.h5 p with
    | error e => rw [hf] at h; cases h
    | ok items =>
      rw [hf] at h
      cases items with
      | nil => cases h
      | cons q items =>
        have := hh _ hf q (by simp)
        obtain ⟨name, o⟩ := q
        cases this
        cases h
  | some v =>
    rw [hcont] at hh
    obtain ⟨⟨name, others, hf⟩, ⟨Y, hs⟩, _⟩ := hh
    unfold Formats.h5Shape Formats.h5Load at h
    rw [hf] at h
    simp only [hs] at h
    simpa using h.symm

/-! ## C110 -/

/-- **C110**, looping (the default): from a configuration for synthetic images from HDF5 files, without episodes and buffer, that `make`
accepts, the sampler that comes out serves, call by call and without end, images of the flow fields of exactly the files of `file_list`, made
with the arguments of the configuration: batch `n` shows the `flow_fields_per_batch` flow fields that come next after every
`batches_per_flow_batch` batches, in passes over all files, each in the given order unless `randomize` is on. In exact arithmetic every batch
is well-formed. -/
theorem C110_h5_looping (E : Env) (arg : Make.Arg) (d : Make.Dict) (hd : Make.Spec.ConfigOf (world E) arg d) (s : Make.Smp)
    (h : Make.make (world E) arg = .ok s) (hp : Plain d .h5 false) (hl : Make.Spec.ValueOr d "loop" (.bool true) (.bool true)) :
    ∃ files rnd a m, FilesOf E .h5 d files ∧ Make.Spec.ValueOr d "randomize" (.bool false) (.bool rnd) ∧ Configured E d a ∧
      Synthetic.make E.fl E.fl32 a = .ok m ∧ Sizes a m.cfg ∧
      ∀ X Z C content, SynthPipeline.Contents E.h5 X Z C files content → 2 ≤ C → SynthPipeline.fieldsOf content files ≠ [] → files.Nodup →
        (rnd = true → ∀ k n, (E.perm k n).Perm (List.range n)) → a.ndevices ∣ m.cfg.ffpb → ∀ fuel, 2 * files.length ≤ fuel →
        a.flowShape = (X, Z) ∧
        ∃ order : Nat → List String, (∀ k, (order k).Perm files) ∧ (rnd = false → ∀ k, order k = files) ∧ ∀ N, ∃ outs,
          synthRun E fuel (List.replicate N .next) s = some outs ∧ outs.length = N ∧
          ∃ K, N * m.cfg.ffpb ≤ ((List.range K).flatMap (fun k => SynthPipeline.fieldsOf content (order k))).length ∧
          ∀ n, n < N → ∃ x, outs[n]? = some (.batch x) ∧
            SynthPipeline.MadeOf (Synthetic.gen E.fl E.fl32 E.rand a m) m.cfg X Z content n
              ((((List.range K).flatMap (fun k => SynthPipeline.fieldsOf content (order k))).drop (n / m.cfg.bpfb * m.cfg.ffpb)).take m.cfg.ffpb) x ∧
            (E.fl = id → E.fl32 = id → Generate.Lawful E.rand → Synthetic.WellFormed a m.cfg.batchSize x) := by
  obtain ⟨files, c, a, m, f1, f2, f3, f4, f5, f6, f7, f8⟩ := h5_built hd h hp
  refine ⟨files, c.randomize, a, m, f1, f2, f4, f5, sizes_of_make f5 f6, ?_⟩
  intro X Z C content hc hC hne hnd hrnd hdv fuel hfuel
  obtain ⟨_, _, _, g4, _⟩ := Synthetic.make_ok f5
  have hlp : c.loop = true := by have := valueOr_unique f3 hl; injection this
  rw [f6] at g4
  obtain ⟨order, o1, o2, o3⟩ := SynthPipeline.C109_synthetic_looping E.h5 X Z C hC KeyTerm.split2 E.perm c hlp hrnd files hnd (.seed 0) content
    hc hne (Synthetic.gen E.fl E.fl32 E.rand a m) _ _ _ _ _ m.cfg g4 hdv fuel hfuel
  have hgrid := h5_grid hc hrnd f1.choose_spec.2.2.1 f8
  refine ⟨?_, order, o1, o2, ?_⟩
  · simp only [List.cons.injEq] at hgrid
    exact Prod.ext hgrid.1 hgrid.2.1
  · intro N
    obtain ⟨outs, st, r1, r2, K, r3, r4⟩ := o3 N
    refine ⟨outs, ?_, r2, K, r3, ?_⟩
    · rw [f7]
      unfold runOn h5World
      rw [r1]
      rfl
    · intro n hn
      obtain ⟨x, x1, x2⟩ := r4 n hn
      refine ⟨x, x1, x2, ?_⟩
      intro e1 e2 hR
      rw [e1, e2] at r1
      rw [e1] at f5
      obtain ⟨n', w1, _⟩ := Synthetic.C89_base_partial (Formats.h5World E.h5 KeyTerm.split2 E.perm) c fuel E.fl32 E.rand hR a m f5 (maskValues f4)
        _ _ outs st r1 x (List.mem_of_getElem? x1)
      have : n' = m.cfg.batchSize := by rw [← w1.images, x2.1]
      rwa [this] at w1

/-- **C110**, not looping: likewise, the batches of one pass, then `StopIteration`. -/
theorem C110_h5_ends (E : Env) (arg : Make.Arg) (d : Make.Dict) (hd : Make.Spec.ConfigOf (world E) arg d) (s : Make.Smp)
    (h : Make.make (world E) arg = .ok s) (hp : Plain d .h5 false) (hl : Make.Spec.ValueOr d "loop" (.bool true) (.bool false)) :
    ∃ files rnd a m, FilesOf E .h5 d files ∧ Make.Spec.ValueOr d "randomize" (.bool false) (.bool rnd) ∧ Configured E d a ∧
      Synthetic.make E.fl E.fl32 a = .ok m ∧ Sizes a m.cfg ∧
      ∀ X Z C content, SynthPipeline.Contents E.h5 X Z C files content → 2 ≤ C → files.Nodup →
        (rnd = true → ∀ k n, (E.perm k n).Perm (List.range n)) → a.ndevices ∣ m.cfg.ffpb → ∀ fuel, files.length < fuel →
        a.flowShape = (X, Z) ∧
        ∃ order : List String, order.Perm files ∧ (rnd = false → order = files) ∧ ∃ outs,
          synthRun E fuel (List.replicate (((SynthPipeline.fieldsOf content files).length + m.cfg.ffpb - 1) / m.cfg.ffpb * m.cfg.bpfb + 1) .next) s =
            some outs ∧
          outs.length = ((SynthPipeline.fieldsOf content files).length + m.cfg.ffpb - 1) / m.cfg.ffpb * m.cfg.bpfb + 1 ∧
          (∀ n, n < ((SynthPipeline.fieldsOf content files).length + m.cfg.ffpb - 1) / m.cfg.ffpb * m.cfg.bpfb → ∃ x, outs[n]? = some (.batch x) ∧
            SynthPipeline.MadeOf (Synthetic.gen E.fl E.fl32 E.rand a m) m.cfg X Z content n
              (((SynthPipeline.fieldsOf content order).drop (n / m.cfg.bpfb * m.cfg.ffpb)).take m.cfg.ffpb) x ∧
            (E.fl = id → E.fl32 = id → Generate.Lawful E.rand → Synthetic.WellFormed a m.cfg.batchSize x)) ∧
          outs[((SynthPipeline.fieldsOf content files).length + m.cfg.ffpb - 1) / m.cfg.ffpb * m.cfg.bpfb]? = some (.raised .stopIteration) := by
  obtain ⟨files, c, a, m, f1, f2, f3, f4, f5, f6, f7, f8⟩ := h5_built hd h hp
  refine ⟨files, c.randomize, a, m, f1, f2, f4, f5, sizes_of_make f5 f6, ?_⟩
  intro X Z C content hc hC hnd hrnd hdv fuel hfuel
  obtain ⟨_, _, _, g4, _⟩ := Synthetic.make_ok f5
  have hlp : c.loop = false := by have := valueOr_unique f3 hl; injection this
  rw [f6] at g4
  obtain ⟨order, o1, o2, outs, st, r1, r2, r3, r4⟩ := SynthPipeline.C109_synthetic_ends E.h5 X Z C hC KeyTerm.split2 E.perm c hlp hrnd files hnd
    (.seed 0) content hc (Synthetic.gen E.fl E.fl32 E.rand a m) _ _ _ _ _ m.cfg g4 hdv fuel hfuel
  have hgrid := h5_grid hc hrnd f1.choose_spec.2.2.1 f8
  refine ⟨?_, order, o1, o2, outs, ?_, r2, ?_, r4⟩
  · simp only [List.cons.injEq] at hgrid
    exact Prod.ext hgrid.1 hgrid.2.1
  · rw [f7]
    unfold runOn h5World
    rw [r1]
    rfl
  · intro n hn
    obtain ⟨x, x1, x2⟩ := r3 n hn
    refine ⟨x, x1, x2, ?_⟩
    intro e1 e2 hR
    rw [e1, e2] at r1
    rw [e1] at f5
    obtain ⟨n', w1, _⟩ := Synthetic.C89_base_partial (Formats.h5World E.h5 KeyTerm.split2 E.perm) c fuel E.fl32 E.rand hR a m f5 (maskValues f4)
      _ _ outs st r1 x (List.mem_of_getElem? x1)
    have : n' = m.cfg.batchSize := by rw [← w1.images, x2.1]
    rwa [this] at w1

/-! ## C111 -/

/-- The image size the configuration asks for: `image_shape`, or 256 x 256. -/
def IsSize (d : Make.Dict) (h w : Nat) : Prop :=
  ∃ v x y, Make.Spec.ValueOr d "image_shape" (.tuple [.int 256, .int 256]) v ∧ Items [x, y] v ∧ IsInt h x ∧ IsInt w y ∧ 0 < h ∧ 0 < w

/-- A scheduler for the images in MAT files. -/
theorem mat_base {E : Env} {d : Make.Dict} {root : KeyTerm} {shape : Option Val} {files : List String} {c : Base.Cfg}
    (hsh : (Make.andThen (Make.toTuple (Make.getD d "image_shape" (.tuple [.int 256, .int 256]))) fun t => .ok (some t)) =
      Except.ok (ε := Exc) shape)
    (hb : buildBase E (Make.baseFromConfig .mat
        { fileList := Make.getD d "file_list" (.list []), randomize := Make.getD d "randomize" (.bool false),
          loop := Make.getD d "loop" (.bool true), key := root, includeImages := true, outputShape := shape }) = .ok (files, c)) :
    ∃ hh ww, FilesOf E .mat d files ∧ Make.Spec.ValueOr d "randomize" (.bool false) (.bool c.randomize) ∧
      Make.Spec.ValueOr d "loop" (.bool true) (.bool c.loop) ∧ IsSize d hh ww ∧
      matWorld E (Make.baseFromConfig .mat
        { fileList := Make.getD d "file_list" (.list []), randomize := Make.getD d "randomize" (.bool false),
          loop := Make.getD d "loop" (.bool true), key := root, includeImages := true, outputShape := shape }) =
        Formats.matWorld E.mat ⟨true, hh, ww⟩ KeyTerm.split2 E.perm := by
  rw [Make.andThen_ok] at hsh
  obtain ⟨t, ht, hsh⟩ := hsh
  cases hsh
  have hb' := hb
  unfold buildBase at hb'
  simp only [Make.baseFromConfig] at hb'
  split at hb'
  case h_2 => cases hb'
  rename_i q hq
  cases hb'
  obtain ⟨_, ⟨hh, ww, hshape, hpos1, hpos2⟩, h1, h2, l, h3, h4, h5, h6⟩ := ((FormatInit.C86_mat_constructor _ _ _ _ _ _).1 q.1 q.2.1 q.2.2).mp hq
  have h3' := baseVal_list h3
  have hv := Make.getD_valueOr d "image_shape" (.tuple [.int 256, .int 256])
  obtain ⟨x, y, rfl, hx, hy⟩ : ∃ x y, t = .tuple [x, y] ∧ x.asInt = some hh ∧ y.asInt = some ww := by
    simp only [Option.getD_some] at hshape
    cases t <;> simp only [shapeVal, FormatInit.ShapeVal.tuple.injEq, reduceCtorEq] at hshape
    rename_i l
    rcases l with _ | ⟨x, _ | ⟨y, _ | ⟨z, l⟩⟩⟩ <;>
      simp only [List.map_cons, List.map_nil, List.cons.injEq, and_true, reduceCtorEq, and_false] at hshape
    exact ⟨x, y, rfl, hshape.1, hshape.2⟩
  have hitems : Items [x, y] (Make.getD d "image_shape" (.tuple [.int 256, .int 256])) := by
    generalize Make.getD d "image_shape" (.tuple [.int 256, .int 256]) = v at ht
    have str : ∀ l : List String, l.map Val.str ≠ [x, y] := by
      intro l hl
      rcases l with _ | ⟨a, l⟩
      · cases hl
      · rw [List.map_cons, List.cons.injEq] at hl
        rw [← hl.1] at hx
        cases hx
    cases v <;> simp only [Make.toTuple, Except.ok.injEq, Val.tuple.injEq, reduceCtorEq] at ht
    case tuple => right; rw [ht]
    case list => left; rw [ht]
    case str st => exact absurd (by rw [List.map_map]; exact ht) (str (st.toList.map String.singleton))
    case dict ks => exact absurd ht (str ks)
  refine ⟨hh.toNat, ww.toNat, ⟨l, ?_, h4, h5, fun p hp => (h6 p hp).1⟩, ?_, ?_, ?_, ?_⟩
  · rcases Make.getD_valueOr d "file_list" (.list []) with ⟨_, g⟩ | g
    · rw [h3'] at g
      simp only [Val.list.injEq, List.map_eq_nil_iff] at g
      subst g
      generalize q.1 = fl at h4 h5
      cases h4
      exact absurd rfl h5
    · rw [h3'] at g; exact g
  · have := Make.getD_valueOr d "randomize" (.bool false)
    rwa [baseVal_bool h1] at this
  · have := Make.getD_valueOr d "loop" (.bool true)
    rwa [baseVal_bool h2] at this
  · exact ⟨_, x, y, hv, hitems, by unfold IsInt; rw [hx]; congr 1; omega, by unfold IsInt; rw [hy]; congr 1; omega, by omega, by omega⟩
  · have e : matCfg (Make.baseFromConfig .mat
        { fileList := Make.getD d "file_list" (.list []), randomize := Make.getD d "randomize" (.bool false),
          loop := Make.getD d "loop" (.bool true), key := root, includeImages := true, outputShape := some (.tuple [x, y]) }) =
        ⟨true, hh.toNat, ww.toNat⟩ := by
      simp only [matCfg, Make.baseFromConfig, hx, hy, Option.getD_some]
    simp only [matWorld, e]

/-- What `make` builds for the images in MAT files. -/
theorem mat_made {E : Env} {arg : Make.Arg} {d : Make.Dict} {s : Make.Smp} (hd : Make.Spec.ConfigOf (world E) arg d)
    (h : Make.make (world E) arg = .ok s) (hp : Plain d .mat true) :
    ∃ files c b hh ww a, FilesOf E .mat d files ∧ Make.Spec.ValueOr d "randomize" (.bool false) (.bool c.randomize) ∧
      Make.Spec.ValueOr d "loop" (.bool true) (.bool c.loop) ∧ Has d "batch_size" (IsInt b) ∧ 0 < b ∧ IsSize d hh ww ∧
      s = .real (.base a) b ∧ buildBase E a = .ok (files, c) ∧ a.usedKey = .seed 0 ∧
      matWorld E a = Formats.matWorld E.mat ⟨true, hh, ww⟩ KeyTerm.split2 E.perm := by
  obtain ⟨b, root, shape, ⟨files, c⟩, hb0, hbs, _, hsh, hb, hfin⟩ := make_steps hd h hp
  have hk := hsh
  rw [if_pos rfl] at hk
  obtain ⟨hh, ww, h1, h2, h3, h4, h5⟩ := mat_base hk hb
  unfold Make.finish at hfin
  rw [if_pos rfl, Make.andThen_ok] at hfin
  obtain ⟨_, _, hfin⟩ := hfin
  cases hfin
  exact ⟨files, c, b, hh, ww, _, h1, h2, h3, hbs, hb0, h4, rfl, hb, rfl, h5⟩

/-- How it runs. -/
theorem mat_built {E : Env} {arg : Make.Arg} {d : Make.Dict} {s : Make.Smp} (hd : Make.Spec.ConfigOf (world E) arg d)
    (h : Make.make (world E) arg = .ok s) (hp : Plain d .mat true) :
    ∃ files c b hh ww key, FilesOf E .mat d files ∧ Make.Spec.ValueOr d "randomize" (.bool false) (.bool c.randomize) ∧
      Make.Spec.ValueOr d "loop" (.bool true) (.bool c.loop) ∧ Has d "batch_size" (IsInt b) ∧ 0 < b ∧ IsSize d hh ww ∧
      ∀ fuel k, realRun E fuel k s =
        (Sampler.realRun (Sampler.ofPlain (Base.sched 0 (Formats.matWorld E.mat ⟨true, hh, ww⟩ KeyTerm.split2 E.perm) c fuel)) b.toNat k
          (Base.init (Formats.matWorld E.mat ⟨true, hh, ww⟩ KeyTerm.split2 E.perm) c files key)).map Prod.fst := by
  obtain ⟨files, c, b, hh, ww, a, f1, f2, f3, f4, f5, f6, f7, f8, f9, f10⟩ := mat_made hd h hp
  refine ⟨files, c, b, hh, ww, .seed 0, f1, f2, f3, f4, f5, f6, fun fuel k => ?_⟩
  rw [f7]
  simp only [realRun]
  rw [f8]
  simp only [f9, f10]

/-- **C111**, not looping: from a configuration for the images in MAT files, without episodes and buffer, that `make` accepts, the sampler that
comes out serves in batches of `batch_size` exactly the pairs in the usable files of `file_list`, resized to `image_shape`, each once, in the
given order unless `randomize` is on, and ends. -/
theorem C111_mat_ends (E : Env) (arg : Make.Arg) (d : Make.Dict) (hd : Make.Spec.ConfigOf (world E) arg d) (s : Make.Smp)
    (h : Make.make (world E) arg = .ok s) (hp : Plain d .mat true) (hl : Make.Spec.ValueOr d "loop" (.bool true) (.bool false)) :
    ∃ files rnd n hh ww, FilesOf E .mat d files ∧ Make.Spec.ValueOr d "randomize" (.bool false) (.bool rnd) ∧
      Has d "batch_size" (IsInt (n : Nat)) ∧ 0 < n ∧ IsSize d hh ww ∧
      ∀ content, RealPipeline.Contents E.mat hh ww files content → files.Nodup →
        (rnd = true → ∀ k n, (E.perm k n).Perm (List.range n)) → ∀ fuel, files.length < fuel →
        ∃ order : List String, order.Perm files ∧ (rnd = false → order = files) ∧ ∀ k, ∃ outs,
          realRun E fuel k s = some outs ∧ outs.length = k ∧
          ∀ i r, outs[i]? = some r → RealPipeline.Serves n hh ww (RealPipeline.pairsOf content order) i r := by
  obtain ⟨files, c, b, hh, ww, key, f1, f2, f3, f4, f5, f6, f7⟩ := mat_built hd h hp
  refine ⟨files, c.randomize, b.toNat, hh, ww, f1, f2, by rwa [Int.toNat_of_nonneg (by omega)], by omega, f6, ?_⟩
  intro content hc hnd hrnd fuel hfuel
  have hlp : c.loop = false := by have := valueOr_unique f3 hl; injection this
  obtain ⟨order, o1, o2, o3⟩ := RealPipeline.C107_real_mat E.mat hh ww KeyTerm.split2 E.perm c hlp hrnd files hnd key content hc b.toNat fuel hfuel
  refine ⟨order, o1, o2, fun k => ?_⟩
  obtain ⟨outs, st, r1, r2, r3⟩ := o3 k
  exact ⟨outs, by rw [f7, r1]; rfl, r2, r3⟩

/-- **C111**, looping (the default): likewise, in passes over the files, without end, every batch full. -/
theorem C111_mat_looping (E : Env) (arg : Make.Arg) (d : Make.Dict) (hd : Make.Spec.ConfigOf (world E) arg d) (s : Make.Smp)
    (h : Make.make (world E) arg = .ok s) (hp : Plain d .mat true) (hl : Make.Spec.ValueOr d "loop" (.bool true) (.bool true)) :
    ∃ files rnd n hh ww, FilesOf E .mat d files ∧ Make.Spec.ValueOr d "randomize" (.bool false) (.bool rnd) ∧
      Has d "batch_size" (IsInt (n : Nat)) ∧ 0 < n ∧ IsSize d hh ww ∧
      ∀ content, RealPipeline.Contents E.mat hh ww files content → RealPipeline.pairsOf content files ≠ [] → files.Nodup →
        (rnd = true → ∀ k n, (E.perm k n).Perm (List.range n)) → ∀ fuel, 2 * files.length ≤ fuel →
        ∃ order : Nat → List String, (∀ k, (order k).Perm files) ∧ (rnd = false → ∀ k, order k = files) ∧ ∀ N, ∃ outs,
          realRun E fuel N s = some outs ∧ outs.length = N ∧
          ∃ K, N * n ≤ ((List.range K).flatMap (fun k => RealPipeline.pairsOf content (order k))).length ∧
          ∀ i, i < N → ∃ b, outs[i]? = some (.ok b) ∧
            RealPipeline.ShowsPairs n hh ww ((((List.range K).flatMap (fun k => RealPipeline.pairsOf content (order k))).drop (n * i)).take n) b := by
  obtain ⟨files, c, b, hh, ww, key, f1, f2, f3, f4, f5, f6, f7⟩ := mat_built hd h hp
  refine ⟨files, c.randomize, b.toNat, hh, ww, f1, f2, by rwa [Int.toNat_of_nonneg (by omega)], by omega, f6, ?_⟩
  intro content hc hne hnd hrnd fuel hfuel
  have hlp : c.loop = true := by have := valueOr_unique f3 hl; injection this
  obtain ⟨order, o1, o2, o3⟩ := RealPipeline.C107_real_mat_looping E.mat hh ww KeyTerm.split2 E.perm c hlp hrnd files hnd key content hc hne
    b.toNat (by omega) fuel hfuel
  refine ⟨order, o1, o2, fun N => ?_⟩
  obtain ⟨outs, st, r1, r2, K, r3, r4⟩ := o3 N
  refine ⟨outs, by rw [f7, r1]; rfl, r2, K, r3, fun i hi => ?_⟩
  obtain ⟨x, x1, x2, _⟩ := r4 i hi
  exact ⟨x, x1, x2⟩

/-! ## A case -/

/-- Two HDF5 files and one that cannot be read, two MAT files; two devices; exact arithmetic. -/
def demoEnv : Env where
  pathExists p := p == "run.yaml"
  isDir _ := false
  isFile p := p.endsWith ".h5" || p.endsWith ".mat" || p.endsWith ".yaml"
  yaml _ := .error (.other 0)
  glob _ _ := []
  matFiles _ := []
  os := ⟨id, fun _ => .skipped, id⟩
  h5 p := if p = "a.h5" then .ok [("flow", some ⟨[12, 2, 12, 2], (List.range 576).map (fun i : Nat => ((i % 2 : Nat) : ℚ))⟩)]
    else if p = "b.h5" then .ok [("flow", some ⟨[12, 1, 12, 2], List.replicate 288 0⟩)] else .error (.other 0)
  mat := { scipy := fun p => if p = "a.mat" then .ok [("I0", ⟨[1, 1], [1]⟩), ("I1", ⟨[1, 1], [2]⟩), ("V", ⟨[1, 1, 2], [3, 4]⟩)]
             else if p = "b.mat" then .error .notImplemented else .error .fileNotFound
           isHdf5 := fun p => p == "b.mat"
           hdf5 := fun p => if p = "b.mat" then .ok [("V", ⟨[1, 1, 2], [7, 8]⟩), ("I0", ⟨[1, 1], [5]⟩), ("I1", ⟨[1, 1], [6]⟩)] else .error .fileNotFound
           resizeImage := fun a _ _ => .ok a
           resizeFlow := fun a _ _ => .ok a }
  np := ⟨fun _ => .error (.other 0), fun _ => .error (.other 0)⟩
  devices := 2
  prngKey v := match v.asInt with | some z => .ok (.seed z.toNat) | none => .error .typeError
  perm _ n := List.range n
  choice _ _ k := List.range k
  fl := id
  fl32 := id
  rand := Generate.demoRand

/-- A configuration for synthetic images from the HDF5 files. -/
def demoDict : Make.Dict :=
  [("scheduler_class", .str ".h5"), ("batch_size", .int 3), ("flow_fields_per_batch", .int 2),
   ("batches_per_flow_batch", .int 2), ("seed", .int 7), ("file_list", .list [.str "a.h5", .str "x.h5", .str "b.h5"]),
   ("image_shape", .list [.int 3, .int 4]), ("img_offset", .list [.int 4, .int 4]),
   ("seeding_density_range", .list [.int 1, .int 1]), ("p_hide_img1", .int 0), ("p_hide_img2", .int 0),
   ("diameter_ranges", .list [.list [.int 1, .int 2]]), ("diameter_var", .int 0),
   ("intensity_ranges", .list [.list [.int 50, .int 200]]), ("intensity_var", .int 0),
   ("rho_ranges", .list [.list [.int 0, .int 0]]), ("rho_var", .int 0), ("dt", .int 1), ("noise_uniform", .int 0),
   ("noise_gaussian_mean", .int 0), ("noise_gaussian_std", .int 0), ("flow_field_size", .list [.int 12, .int 12]),
   ("resolution", .int 1), ("velocities_per_pixel", .int 1), ("max_speed_x", .int 1), ("max_speed_y", .int 1),
   ("min_speed_x", .int 0), ("min_speed_y", .int 0), ("output_units", .str "pixels")]

/-- A configuration for the images in the MAT files, one pass over them. -/
def demoReal : Make.Dict :=
  [("scheduler_class", .str ".mat"), ("batch_size", .int 3), ("flow_fields_per_batch", .int 1), ("include_images", .bool true),
   ("loop", .bool false), ("image_shape", .list [.int 1, .int 1]), ("file_list", .list [.str "b.mat", .str "x.mat", .str "a.mat"])]

/-- The names in a batch. -/
def namesOf : Sampler.Out (Sampler.OutBatch (Adapter.Field2 ℚ) Synthetic.Pair) → List String
  | .batch x => x.files.getD []
  | _ => []

/-- The sizes of the images in a batch. -/
def imageSizes : Sampler.Out (Sampler.OutBatch (Adapter.Field2 ℚ) Synthetic.Pair) → List (Nat × Nat)
  | .batch x => x.images.map (fun p => (p.first.H, p.second.W))
  | _ => []

/-- What the first three calls show. -/
def demoRun {α : Type} (f : Sampler.Out (Sampler.OutBatch (Adapter.Field2 ℚ) Synthetic.Pair) → α) : List α :=
  match Make.make (world demoEnv) (.dict demoDict) with
  | .ok s => ((synthRun demoEnv 6 (List.replicate 3 .next) s).getD []).map f
  | .error _ => []

/-- `make` accepts, and the sampler it returns serves: two batches of both flow fields of `a.h5`, then of the only one of `b.h5` and the
first of `a.h5` again. -/
example : demoRun namesOf = [["a.h5", "a.h5"], ["a.h5", "a.h5"], ["b.h5", "a.h5"]] := by decide +kernel

/-- Four pairs are made on the two devices, although three are requested. -/
example : demoRun imageSizes = List.replicate 3 (List.replicate 4 (3, 4)) := by decide +kernel

example : Plain demoDict .h5 false :=
  ⟨rfl, .inl ⟨rfl, rfl⟩, ⟨by decide, .inl ⟨rfl, rfl⟩⟩, ⟨by decide, .inl ⟨rfl, rfl⟩⟩⟩

/-- What the HDF5 files hold. -/
def demoContent (p : String) : Option (Arr ℚ) :=
  if p = "a.h5" then some ⟨[12, 2, 12, 2], (List.range 576).map (fun i : Nat => ((i % 2 : Nat) : ℚ))⟩
  else if p = "b.h5" then some ⟨[12, 1, 12, 2], List.replicate 288 0⟩ else none

example : SynthPipeline.Contents demoEnv.h5 12 12 2 ["a.h5", "x.h5", "b.h5"] demoContent ∧
    SynthPipeline.fieldsOf demoContent ["a.h5", "x.h5", "b.h5"] ≠ [] ∧ FilesOf demoEnv .h5 demoDict ["a.h5", "x.h5", "b.h5"] := by
  refine ⟨?_, by decide +kernel, ["a.h5", "x.h5", "b.h5"], rfl, .file rfl (.file rfl (.file rfl .nil)), by simp, by decide +kernel⟩
  intro p hp
  simp only [List.mem_cons, List.not_mem_nil, or_false] at hp
  rcases hp with rfl | rfl | rfl
  · exact ⟨⟨"flow", [], rfl⟩, ⟨2, rfl⟩, by unfold Arr.WF; decide +kernel⟩
  · intro items h
    cases h
  · exact ⟨⟨"flow", [], rfl⟩, ⟨1, rfl⟩, by unfold Arr.WF; decide +kernel⟩

example : Plain demoReal .mat true :=
  ⟨rfl, .inr rfl, ⟨by decide, .inl ⟨rfl, rfl⟩⟩, ⟨by decide, .inl ⟨rfl, rfl⟩⟩⟩

/-- What the first two calls show. -/
def demoImages {α : Type} (f : Except Exc (Sampler.RealBatch ℚ) → α) : List α :=
  match Make.make (world demoEnv) (.dict demoReal) with
  | .ok s => ((realRun demoEnv 6 2 s).getD []).map f
  | .error _ => []

/-- The pairs of both MAT files, then the end. -/
example : demoImages (fun r => match r with | .ok b => b.flow.data | .error _ => []) = [[7, 8, 3, 4, 0, 0], []] := by decide +kernel

example : demoImages (fun r => match r with | .ok b => b.files.getD [] | .error _ => ["ended"]) = [["b.mat", "a.mat", ""], ["ended"]] := by
  decide +kernel

/-- **C42**, the sampler of real images on a scheduler made by `from_config`: it is made exactly if the batch size is positive, the scheduler is of a
class that can extract images, and was asked to. -/
theorem C42_real_needs_images (kind : Make.Kind) (kw : Make.Kw) (b : Int) :
    realInit (.base (Make.baseFromConfig kind kw)) b = (if 0 < b ∧ kind ≠ .h5 ∧ kw.includeImages = true then .ok () else .error .valueError) := by
  unfold realInit
  by_cases hb : 0 < b
  · rw [if_neg (by omega)]
    cases kind <;> cases h : kw.includeImages <;> simp [hasImages, Make.baseFromConfig, h, hb]
  · rw [if_pos (by omega), if_neg (by tauto)]

end Verif.Whole
