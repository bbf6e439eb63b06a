import Verif.Props.SynthMat
import Verif.Proofs.StackLive
import Verif.Spec.Buffered
/-!
# Property C119: what `buffer_size` changes
-/

namespace Verif.Whole
open Verif Verif.Whole.Spec

/-! ## Specification -/

/-- The files are as the sampler needs them, and not all empty if it is to loop over them. -/
def Sound (E : Env) (kind : Make.Kind) (files : List String) (loop : Bool) : Prop :=
  match kind with
  | .h5 => ∃ X Z C content, SynthPipeline.Contents E.h5 X Z C files content ∧ (loop = true → SynthPipeline.fieldsOf content files ≠ [])
  | .mat => Formats.PilOK E.mat ∧ Ordinary E.mat files ∧
      ∃ content, MatContents E.mat 256 256 files content ∧ (loop = true → SynthAny.fieldsOf content files ≠ [])
  | .npy => ∃ X Z C content, NpContents E.np X Z C files content ∧ (loop = true → SynthAny.fieldsOf content files ≠ [])

/-! ## What `make` builds -/

theorem andThen_map {α β γ : Type} (x : Except Exc α) (f : α → Except Exc β) (g : β → γ) :
    (Make.andThen x f).map g = Make.andThen x (fun a => (f a).map g) := by
  cases x <;> rfl

theorem _root_.Verif.Make.andThen_okv {α β : Type} (x : α) (f : α → Except Exc β) : Make.andThen (.ok x) f = f x := rfl

theorem raiseIf_map {α β : Type} (b : Bool) (e : Exc) (x : Except Exc α) (g : α → β) :
    (Make.raiseIf b e x).map g = Make.raiseIf b e (x.map g) := by
  unfold Make.raiseIf
  split <;> rfl

theorem getD_same {d d' : Make.Dict} (h : SameBut d d') (k : String) (hk : k ≠ "buffer_size") (v : Val) : Make.getD d k v = Make.getD d' k v := by
  unfold Make.getD
  rw [h k hk]

theorem item_same {d d' : Make.Dict} (h : SameBut d d') (k : String) (hk : k ≠ "buffer_size") : Make.item d k = Make.item d' k := by
  unfold Make.item
  rw [h k hk]

theorem sizeOption_same {d d' : Make.Dict} (h : SameBut d d') (k : String) (hk : k ≠ "buffer_size") : Make.sizeOption d k = Make.sizeOption d' k := by
  unfold Make.sizeOption
  rw [getD_same h k hk]

theorem pipeShape_prefetch (E : Env) (p : Make.Pipe) (b n : Int) : pipeShape E (.prefetch p b n) = pipeShape E p := by
  rw [pipeShape]

theorem synthBuild_prefetch (E : Env) (a : Make.BaseArgs) (b n : Int) (sa : Make.SynthArgs) :
    synthBuild E (.prefetch (.base a) b n) sa = synthBuild E (.base a) sa := by
  unfold synthBuild synthArgs threeOf
  rw [pipeShape_prefetch]
  rfl

theorem synthFromConfig_same {E : Env} {d d' : Make.Dict} (h : SameBut d d') (a : Make.BaseArgs) (b n : Int) :
    Make.synthFromConfig (world E) (.prefetch (.base a) b n) d = (Make.synthFromConfig (world E) (.base a) d').map (buffered b n) := by
  unfold Make.synthFromConfig
  simp only [getD_same h, item_same h, ne_eq, String.reduceEq, not_false_eq_true, andThen_map]
  simp only [world, synthBuild_prefetch]
  rfl

theorem finish_same {E : Env} {d d' : Make.Dict} (h : SameBut d d') (images : Bool) (b n : Int) (a : Make.BaseArgs) :
    Make.finish (world E) d images b 0 (.prefetch (.base a) b n) = (Make.finish (world E) d' images b 0 (.base a)).map (buffered b n) := by
  unfold Make.finish
  rw [getD_same h _ (by decide), synthFromConfig_same h]
  cases images
  · simp only [Bool.false_eq_true, if_false]
    split
    · rfl
    · rw [andThen_map]
  · simp only [if_true, andThen_map]
    rfl

/-- **C119**, what is built: for configurations that differ only in `buffer_size`, without episodes, `make` succeeds with a buffer exactly
if it does without, raises the same exception otherwise, and what it returns differs only by a prefetching scheduler with that much
room in front of the scheduler. -/
theorem C119_built (E : Env) (d d' : Make.Dict) (hs : SameBut d d') (n : Int) (hn : 0 < n) (hbuf : Make.Spec.NatOption d "buffer_size" n)
    (hno : Make.Spec.NatOption d' "buffer_size" 0) (hep : Make.Spec.NatOption d' "episode_length" 0) :
    ∃ b, (∀ s', Make.make (world E) (.dict d') = .ok s' → Has d "batch_size" (IsInt b)) ∧
      Make.make (world E) (.dict d) = (Make.make (world E) (.dict d')).map (buffered b n) := by
  have hlen : Make.sizeOption d' "episode_length" = .ok 0 := Make.sizeOption_ok.2 hep
  have hb1 : Make.sizeOption d "buffer_size" = .ok n := Make.sizeOption_ok.2 hbuf
  have hb2 : Make.sizeOption d' "buffer_size" = .ok 0 := Make.sizeOption_ok.2 hno
  refine ⟨(((d'.lookup "batch_size").bind Val.asInt).getD 0), ?_, ?_⟩
  · intro s' h'
    have : Make.fromDict (world E) d' = .ok s' := h'
    unfold Make.fromDict at this
    split at this
    · cases this
    · rw [Make.andThen_ok] at this
      obtain ⟨_, _, this⟩ := this
      split at this
      · cases this
      · rename_i bs hbs
        split at this
        · cases this
        · rename_i b hb
          refine ⟨bs, by rw [hs _ (by decide)]; exact hbs, ?_⟩
          rw [hbs]
          simp only [Option.bind_some, hb, Option.getD_some]
          exact hb
  · show Make.fromDict (world E) d = (Make.fromDict (world E) d').map _
    unfold Make.fromDict
    simp only [getD_same hs, sizeOption_same hs, hs _ (show "scheduler_class" ≠ "buffer_size" by decide), hs _ (show "batch_size" ≠ "buffer_size" by decide),
      hs _ (show "flow_fields_per_batch" ≠ "buffer_size" by decide), ne_eq, String.reduceEq, not_false_eq_true, hlen, hb1, hb2]
    cases h1 : d'.lookup "scheduler_class" with
    | none => rfl
    | some cls =>
      simp only [andThen_map]
      congr 1
      funext kind
      cases h2 : d'.lookup "batch_size" with
      | none => rfl
      | some bs =>
        dsimp only
        cases h3 : bs.asInt with
        | none => rfl
        | some b =>
          simp only [raiseIf_map, Option.bind_some, h3, Option.getD_some]
          congr 1
          cases h4 : Make.getD d' "include_images" (.bool false) with
          | bool images =>
            dsimp only
            simp only [Make.andThen_okv, andThen_map, raiseIf_map, Make.withEpisodes, Make.withPrefetch, hn, if_true, lt_irrefl, if_false, finish_same hs]
          | _ => rfl

/-! ## What the sampler shows -/

theorem buffered_on {D : Type} (E : Env) (w : Base.World ℚ D KeyTerm) (c : Base.Cfg) (hp : c.randomize = true → Base.PermOK w) (files : List String)
    (key : KeyTerm) (content : String → List (Base.Sample ℚ)) (hy : ∀ p ∈ files, Base.Yields w p (content p)) {fsh o1 o2 named}
    (hu : Base.Uniform (files.flatMap content) fsh o1 o2 named) (hlive : c.loop = true → ∃ p ∈ files, content p ≠ []) (a : Synthetic.Args)
    (m : Synthetic.Made) (hpos : 0 < m.cfg.ffpb) (fuel : Nat) (hf : 2 * files.length < fuel) (modern : Bool) (pcfg : Prefetch.Cfg)
    (hb : pcfg.batchSize = m.cfg.ffpb) (hbuf : 0 < pcfg.bufferSize) (ops : List Sampler.Op) :
    (∃ outs, BufferedOn E w fuel modern a m c files key pcfg ops outs) ∧
    ((.reset true ∈ ops → c.loop = false ∨ c.randomize = false) → (modern = true → .nextEpisode ∉ ops) →
      ∀ outs, BufferedOn E w fuel modern a m c files key pcfg ops outs →
        ∃ outs', runOn E w fuel a m c files key ops = some outs' ∧ outs = outs'.map (Stack.withDone (Stack.flags modern m.cfg.batchSize))) := by
  obtain ⟨h1, h2, h3⟩ := Stack.base_plain (fun b : Base.Batch ℚ => (⟨b.flow.rows.map Synthetic.fieldOf, some b.mask, b.files⟩ : Sampler.FlowBatch (Adapter.Field2 ℚ)))
    (0 : ℚ) w c hp files key content hy hu hlive fuel hf hpos
  refine ⟨?_, ?_⟩
  · obtain ⟨calls, outs, st, e1, e2, e3⟩ := Stack.calls_return modern (Synthetic.fieldSched w c fuel) (Synthetic.gen E.fl E.fl32 E.rand a m) m.cfg
      pcfg hb hbuf (Base.init w c files key) h1 (fun σ e σ' g1 g2 => (h2 σ e σ' g1 g2).1) ops
    exact ⟨outs, calls, st, e1, by rw [hb]; exact e2, e3⟩
  · rintro hres hne outs ⟨calls, st, e1, e2, e3⟩
    rw [hb] at e2
    obtain ⟨outs', s', r1, r2⟩ := Stack.C82_buffering_invisible_partial modern (Synthetic.fieldSched w c fuel) (Synthetic.gen E.fl E.fl32 E.rand a m)
      m.cfg pcfg hb _ h1 h2 calls
      (fun ⟨q, hq, hq'⟩ => h3 (hres (by rw [← e1, ← hq']; exact List.mem_map_of_mem hq))) e2
      (fun hm q hq hq' => hne hm (by rw [← e1, ← hq']; exact List.mem_map_of_mem hq)) outs st e3
    rw [e1] at r1
    exact ⟨outs', by unfold runOn; rw [r1]; rfl, r2⟩

/-- What `Sound` gives, for the scheduler of each class. -/
theorem sound_reads {E : Env} {kind : Make.Kind} {files : List String} {lp : Bool} (h : Sound E kind files lp) :
    match kind with
    | .h5 => ∃ (content : String → List (Base.Sample ℚ)) (fsh : _), (∀ p ∈ files, Base.Yields (h5World E) p (content p)) ∧
        Base.Uniform (files.flatMap content) fsh none none true ∧ (lp = true → ∃ p ∈ files, content p ≠ [])
    | .mat => ∃ (content : String → List (Base.Sample ℚ)) (fsh : _),
        (∀ p ∈ files, Base.Yields (Formats.matWorld E.mat ⟨false, 256, 256⟩ KeyTerm.split2 E.perm) p (content p)) ∧
        Base.Uniform (files.flatMap content) fsh none none true ∧ (lp = true → ∃ p ∈ files, content p ≠ [])
    | .npy => ∃ (content : String → List (Base.Sample ℚ)) (fsh : _),
        (∀ p ∈ files, Base.Yields (Formats.npWorld E.np false KeyTerm.split2 E.perm) p (content p)) ∧
        Base.Uniform (files.flatMap content) fsh none none true ∧ (lp = true → ∃ p ∈ files, content p ≠ []) := by
  have any : ∀ {D : Type} (w : Base.World ℚ D KeyTerm) (X Z C : Nat) (content : String → List (Arr ℚ)), SynthAny.Reads w X Z C files content →
      (lp = true → SynthAny.fieldsOf content files ≠ []) →
      ∃ (content : String → List (Base.Sample ℚ)) (fsh : _), (∀ p ∈ files, Base.Yields w p (content p)) ∧
        Base.Uniform (files.flatMap content) fsh none none true ∧ (lp = true → ∃ p ∈ files, content p ≠ []) := by
    intro D w X Z C content hr hne
    refine ⟨SynthAny.samplesOf content, [X, Z, C], fun p hp => (hr p hp).1, ?_, ?_⟩
    · rw [SynthAny.flatMap_samplesOf]
      exact SynthAny.contents_uniform hr (fun q hq => hq)
    · intro hl
      obtain ⟨q, hq⟩ := List.exists_mem_of_ne_nil _ (hne hl)
      obtain ⟨p, hp, hq'⟩ := List.mem_flatMap.mp hq
      refine ⟨p, hp, ?_⟩
      unfold SynthAny.samplesOf
      simp only [ne_eq, List.map_eq_nil_iff]
      intro he
      rw [he] at hq'
      cases hq'
  cases kind with
  | h5 =>
    obtain ⟨X, Z, C, content, hc, hne⟩ := h
    refine ⟨SynthPipeline.samplesOf content, [X, Z, C], SynthPipeline.contents_yields hc KeyTerm.split2 E.perm, ?_, ?_⟩
    · rw [SynthPipeline.flatMap_samplesOf]
      exact SynthPipeline.contents_uniform hc (fun q hq => hq)
    · intro hl
      obtain ⟨q, hq⟩ := List.exists_mem_of_ne_nil _ (hne hl)
      obtain ⟨p, hp, hq'⟩ := List.mem_flatMap.mp hq
      refine ⟨p, hp, ?_⟩
      unfold SynthPipeline.samplesOf SynthPipeline.fieldsOf
      simp only [List.flatMap_cons, List.flatMap_nil, List.append_nil, ne_eq, List.map_eq_nil_iff]
      exact List.ne_nil_of_mem hq'
  | npy =>
    obtain ⟨X, Z, C, content, hc, hne⟩ := h
    exact any _ X Z C content (np_reads hc _ _) hne
  | mat =>
    obtain ⟨hpil, ho, content, hc, hne⟩ := h
    refine any _ 256 256 2 _ (mat_reads hpil (by omega) (by omega) ho _ _) ?_
    intro hl
    obtain ⟨q, hq⟩ := List.exists_mem_of_ne_nil _ (hne hl)
    obtain ⟨p, hp, hq'⟩ := List.mem_flatMap.mp hq
    rcases hc p hp with ⟨data, v, a, e, h1, h2, h3⟩ | ⟨e, _⟩
    · intro hnil
      unfold SynthAny.fieldsOf at hnil
      rw [List.flatMap_eq_nil_iff] at hnil
      have := hnil p hp
      rw [List.map_eq_nil_iff] at this
      rcases mat_contents hpil (H := 256) (W := 256) (by omega) (by omega) ho p hp with ⟨_, _, _, e', _⟩ | ⟨_, hno⟩
      · rw [this] at e'; cases e'
      · obtain ⟨_, _, hh, ww, _, _, _, _, g1, g2, ⟨_, g3⟩, _⟩ := h3
        refine hno data v h1 h2 ⟨hh, ww, ?_, g1, g2⟩
        rcases g3 with ⟨g, _⟩ | ⟨g, _⟩
        · exact .inl g
        · exact .inr g
    · rw [e] at hq'; cases hq'

/-- The scheduler of the class, for flow fields only. -/
def onKind {α : Sort*} (E : Env) (kind : Make.Kind) (f : {D : Type} → Base.World ℚ D KeyTerm → α) : α :=
  match kind with
  | .h5 => f (h5World E)
  | .mat => f (Formats.matWorld E.mat ⟨false, 256, 256⟩ KeyTerm.split2 E.perm)
  | .npy => f (Formats.npWorld E.np false KeyTerm.split2 E.perm)

/-- The two samplers and their histories, in terms of their parts. -/
theorem synth_made (E : Env) (d d' : Make.Dict) (hs : SameBut d d') (n : Int) (hn : 0 < n)
    (hbuf : Make.Spec.NatOption d "buffer_size" n) (kind : Make.Kind) (hp : Plain d' kind false) (s' : Make.Smp)
    (h' : Make.make (world E) (.dict d') = .ok s') :
    ∃ s files c a m, Make.make (world E) (.dict d) = .ok s ∧ FilesOf E kind d' files ∧
      Make.Spec.ValueOr d' "randomize" (.bool false) (.bool c.randomize) ∧ Make.Spec.ValueOr d' "loop" (.bool true) (.bool c.loop) ∧
      Configured E d' a ∧ Synthetic.make E.fl E.fl32 a = .ok m ∧ Sizes a m.cfg ∧ 0 < a.spec.batchSize ∧
      (∀ fuel modern ops outs, BufferedRuns E fuel modern ops s outs ↔
        onKind E kind (fun w => BufferedOn E w fuel modern a m c files (.seed 0) ⟨a.spec.batchSize, n.toNat⟩ ops outs)) ∧
      ∀ fuel ops, synthRun E fuel ops s' = onKind E kind (fun w => runOn E w fuel a m c files (.seed 0) ops) := by
  obtain ⟨b, hb, hmake⟩ := C119_built E d d' hs n hn hbuf hp.noBuffer hp.noEpisodes
  have hb' := hb s' h'
  rw [h'] at hmake
  obtain ⟨b2, root, shape, ⟨files, c⟩, hb0, hbs, _, hsh, hbase, hfin⟩ := make_steps (arg := .dict d') rfl h' hp
  have hsh' : shape = none := by
    simp only [Bool.false_eq_true, if_false, Except.ok.injEq] at hsh
    exact hsh.symm
  subst hsh'
  obtain ⟨f1, _, _, f2, f3⟩ := base_files hbase
  unfold Make.finish at hfin
  rw [if_neg (by decide)] at hfin
  split at hfin
  · cases hfin
  rw [if_neg (by decide)] at hfin
  simp only [Make.andThen_ok] at hfin
  obtain ⟨_, _, hfin⟩ := hfin
  obtain ⟨sa, a, m, hs', h1, h2, h3, h4, h5⟩ := synth_configured hfin
  have hsz := sizes_of_make h2 h5
  have hbb : (b : Int) = a.spec.batchSize := by
    obtain ⟨v, g1, g2⟩ := hb'
    obtain ⟨v', g3, g4⟩ := h3.batchSize
    rw [hs _ (by decide), g3] at g1
    cases g1
    have := g2.symm.trans g4
    simpa using this
  have hpos : 0 < a.spec.batchSize := by
    obtain ⟨v, g1, g2⟩ := hbs
    obtain ⟨v', g3, g4⟩ := h3.batchSize
    rw [g3] at g1
    cases g1
    have := g2.symm.trans g4
    simp at this
    omega
  refine ⟨buffered b n s', files, c, a, m, hmake, f1, f2, f3, h3, h2, hsz, hpos, ?_, ?_⟩
  · intro fuel modern ops outs
    have hbn : a.spec.batchSize = b.toNat := by omega
    rw [hbn, hs']
    constructor
    · rintro ⟨a0, b0, n0, sa0, fl0, c0, s0, m0, e1, e2, e3, e4⟩
      simp only [buffered, Make.Smp.synthetic.injEq, Make.Pipe.prefetch.injEq, Make.Pipe.base.injEq] at e1
      obtain ⟨⟨rfl, rfl, rfl⟩, rfl⟩ := e1
      rw [hbase] at e2
      rw [synthBuild_prefetch, h1] at e3
      cases e2
      cases e3
      cases kind <;> exact e4
    · intro e4
      refine ⟨_, b, n, sa, files, c, a, m, rfl, hbase, by rw [synthBuild_prefetch]; exact h1, ?_⟩
      cases kind <;> exact e4
  · intro fuel ops
    rw [hs']
    simp only [synthRun]
    rw [hbase, h1]
    cases kind <;> rfl

/-- **C119** (partial), synthetic images: with `flow_fields_per_batch = batch_size`, whatever the interleaving of the worker with the calls
(no timeout striking while it is alive), a history of `next()` and `reset()` on the sampler made with `buffer_size` shows what it shows on
the one made without, except that since Python 3.12 the absent `done` flags are `False`; and every history can take place. Resets of the
scheduler are left out if it loops and shuffles (`C82_refuted_reset`), `next_episode()` since Python 3.12 (`C82_refuted_done`); with another
`flow_fields_per_batch` the claim is false (`C119_refuted`). -/
theorem C119_synthetic_partial (E : Env) (d d' : Make.Dict) (hs : SameBut d d') (n : Int) (hn : 0 < n)
    (hbuf : Make.Spec.NatOption d "buffer_size" n) (kind : Make.Kind) (hp : Plain d' kind false) (s' : Make.Smp)
    (h' : Make.make (world E) (.dict d') = .ok s') :
    ∃ s files rnd lp a m, Make.make (world E) (.dict d) = .ok s ∧ FilesOf E kind d' files ∧
      Make.Spec.ValueOr d' "randomize" (.bool false) (.bool rnd) ∧ Make.Spec.ValueOr d' "loop" (.bool true) (.bool lp) ∧ Configured E d' a ∧
      Synthetic.make E.fl E.fl32 a = .ok m ∧ Sizes a m.cfg ∧
      (a.ffpb = a.spec.batchSize → Sound E kind files lp → (rnd = true → ∀ k n, (E.perm k n).Perm (List.range n)) →
        ∀ fuel, 2 * files.length < fuel → ∀ modern ops,
          (∃ outs, BufferedRuns E fuel modern ops s outs) ∧
          ((.reset true ∈ ops → lp = false ∨ rnd = false) → (modern = true → .nextEpisode ∉ ops) →
            ∀ outs, BufferedRuns E fuel modern ops s outs →
              ∃ outs', synthRun E fuel ops s' = some outs' ∧ outs = outs'.map (Stack.withDone (Stack.flags modern m.cfg.batchSize)))) := by
  obtain ⟨s, files, c, a, m, g1, g2, g3, g4, g5, g6, hsz, g8, hrun, hsyn⟩ := synth_made E d d' hs n hn hbuf kind hp s' h'
  refine ⟨s, files, c.randomize, c.loop, a, m, g1, g2, g3, g4, g5, g6, hsz, ?_⟩
  intro hff hsound hrnd fuel hfuel modern ops
  have hpc : a.spec.batchSize = m.cfg.ffpb := by
    have := hsz.ffpb
    omega
  have hpos : 0 < m.cfg.ffpb := by omega
  simp only [hrun, hsyn]
  have hr := sound_reads hsound
  cases kind with
  | h5 =>
    obtain ⟨content, fsh, r1, r2, r3⟩ := hr
    exact buffered_on E (h5World E) c hrnd files (.seed 0) content r1 r2 r3 a m hpos fuel hfuel modern _ hpc (by simp; omega) ops
  | mat =>
    obtain ⟨content, fsh, r1, r2, r3⟩ := hr
    exact buffered_on E (Formats.matWorld E.mat ⟨false, 256, 256⟩ KeyTerm.split2 E.perm) c hrnd files (.seed 0) content r1 r2 r3 a m hpos fuel hfuel modern _ hpc (by simp; omega) ops
  | npy =>
    obtain ⟨content, fsh, r1, r2, r3⟩ := hr
    exact buffered_on E (Formats.npWorld E.np false KeyTerm.split2 E.perm) c hrnd files (.seed 0) content r1 r2 r3 a m hpos fuel hfuel modern _ hpc (by simp; omega) ops

/-- **C119** (partial), images from MAT files: likewise. The batch size is always right here. -/
theorem C119_real_partial (E : Env) (d d' : Make.Dict) (hs : SameBut d d') (n : Int) (hn : 0 < n)
    (hbuf : Make.Spec.NatOption d "buffer_size" n) (hp : Plain d' .mat true) (s' : Make.Smp) (h' : Make.make (world E) (.dict d') = .ok s') :
    ∃ s files rnd lp k hh ww, Make.make (world E) (.dict d) = .ok s ∧ FilesOf E .mat d' files ∧
      Make.Spec.ValueOr d' "randomize" (.bool false) (.bool rnd) ∧ Make.Spec.ValueOr d' "loop" (.bool true) (.bool lp) ∧
      Has d' "batch_size" (IsInt (k : Nat)) ∧ 0 < k ∧ IsSize d' hh ww ∧
      ∀ content, RealPipeline.Contents E.mat hh ww files content → (lp = true → RealPipeline.pairsOf content files ≠ []) →
        (rnd = true → ∀ k n, (E.perm k n).Perm (List.range n)) → ∀ fuel, 2 * files.length < fuel → ∀ modern ops,
          (∃ outs, BufferedReal E fuel modern ops s outs) ∧
          ((.reset true ∈ ops → lp = false ∨ rnd = false) → (modern = true → .nextEpisode ∉ ops) →
            ∀ outs, BufferedReal E fuel modern ops s outs →
              ∃ outs', realCalls E fuel ops s' = some outs' ∧ outs = outs'.map (Stack.withDoneReal (Stack.flags modern k))) := by
  obtain ⟨b, hb, hmake⟩ := C119_built E d d' hs n hn hbuf hp.noBuffer hp.noEpisodes
  have hb' := hb s' h'
  rw [h'] at hmake
  obtain ⟨files, c, b2, hh, ww, a, f1, f2, f3, f4, f5, f6, f7, f8, f9, f10⟩ := mat_made (arg := .dict d') rfl h' hp
  have hbb : b = b2 := by
    obtain ⟨v, g1, g2⟩ := hb'
    obtain ⟨v', g3, g4⟩ := f4
    rw [hs _ (by decide), g3] at g1
    cases g1
    have := g2.symm.trans g4
    simpa using this
  subst hbb
  refine ⟨buffered b n s', files, c.randomize, c.loop, b.toNat, hh, ww, hmake, f1, f2, f3, by rwa [Int.toNat_of_nonneg (by omega)], by omega, f6, ?_⟩
  intro content hc hne hrnd fuel hfuel modern ops
  have hrun : ∀ outs, BufferedReal E fuel modern ops (buffered b n s') outs ↔
      ∃ (calls : List (Sampler.ISched (Prefetch.St (Base.St (Base.Sample ℚ) KeyTerm) (Base.Batch ℚ)) (Base.Batch ℚ) × Sampler.Op)) (st : _),
      calls.map Prod.snd = ops ∧
      (∀ q ∈ calls, Stack.Meets modern (Stack.plainSrc (Base.sched 0 (Formats.matWorld E.mat ⟨true, hh, ww⟩ KeyTerm.split2 E.perm) c fuel) b.toNat)
        ⟨b.toNat, n.toNat⟩ q.1) ∧
      Stack.realVia b.toNat calls (Prefetch.init (Base.init (Formats.matWorld E.mat ⟨true, hh, ww⟩ KeyTerm.split2 E.perm) c files (.seed 0))) =
        some (outs, st) := by
    intro outs
    rw [f7]
    constructor
    · rintro ⟨a0, b0, n0, k0, fl0, c0, e1, e2, e4⟩
      simp only [buffered, Make.Smp.real.injEq, Make.Pipe.prefetch.injEq, Make.Pipe.base.injEq] at e1
      obtain ⟨⟨rfl, rfl, rfl⟩, rfl⟩ := e1
      rw [f8] at e2
      cases e2
      rw [f9, f10] at e4
      exact e4
    · intro e4
      refine ⟨_, b, n, b, files, c, rfl, f8, ?_⟩
      rw [f9, f10]
      exact e4
  have hreal : realCalls E fuel ops s' =
      (Sampler.realHistory (Sampler.ofPlain (Base.sched 0 (Formats.matWorld E.mat ⟨true, hh, ww⟩ KeyTerm.split2 E.perm) c fuel)) b.toNat ops
        (Base.init (Formats.matWorld E.mat ⟨true, hh, ww⟩ KeyTerm.split2 E.perm) c files (.seed 0))).map Prod.fst := by
    rw [f7]
    simp only [realCalls]
    rw [f8]
    simp only [f9, f10]
  simp only [hrun, hreal]
  have hlive : c.loop = true → ∃ p ∈ files, RealPipeline.samplesOf content p ≠ [] := by
    intro hl
    obtain ⟨q, hq⟩ := List.exists_mem_of_ne_nil _ (hne hl)
    obtain ⟨p, hp, hq'⟩ := List.mem_filterMap.mp hq
    refine ⟨p, hp, ?_⟩
    unfold RealPipeline.samplesOf
    cases hcp : content p with
    | none => rw [hcp] at hq'; cases hq'
    | some t => simp
  have hpos : 0 < b.toNat := by omega
  obtain ⟨h1, h2, h3⟩ := Stack.base_plain id (0 : ℚ) (Formats.matWorld E.mat ⟨true, hh, ww⟩ KeyTerm.split2 E.perm) c hrnd files (.seed 0)
    (RealPipeline.samplesOf content) (RealPipeline.contents_yields hc KeyTerm.split2 E.perm) (RealPipeline.contents_uniform hc) hlive fuel hfuel hpos
  rw [Stack.view_id] at h1 h2 h3
  refine ⟨?_, ?_⟩
  · obtain ⟨calls, outs, st, e1, e2, e3⟩ := Stack.real_calls_return modern _ b.toNat ⟨b.toNat, n.toNat⟩ rfl (by simp; omega) _ h1
      (fun σ e σ' g1 g2 => (h2 σ e σ' g1 g2).1) ops
    exact ⟨outs, calls, st, e1, e2, e3⟩
  · rintro hres hnx outs ⟨calls, st, e1, e2, e3⟩
    obtain ⟨outs', st', r1, r2⟩ := Stack.C82_real_sampler_partial modern _ b.toNat ⟨b.toNat, n.toNat⟩ rfl _ h1 h2 calls
      (fun ⟨q, hq, hq'⟩ => h3 (hres (by rw [← e1, ← hq']; exact List.mem_map_of_mem hq))) e2
      (fun hm q hq hq' => hnx hm (by rw [← e1, ← hq']; exact List.mem_map_of_mem hq)) outs st e3
    rw [e1] at r1
    exact ⟨outs', by rw [r1]; rfl, r2⟩

/-! ## Another number of flow fields per batch -/

theorem run_frame {S B : Type} {p : Prefetch.Src S B} {pcfg : Prefetch.Cfg} : ∀ (as : List Prefetch.Action) (s s' : Prefetch.St S B) outs,
    (∀ a ∈ as, a.isWorker = true) → Prefetch.run p pcfg as s = some (s', outs) → s'.c = s.c := by
  intro as
  induction as with
  | nil => intro s s' outs _ h; cases h; rfl
  | cons a as ih =>
    intro s s' outs hw h
    unfold Prefetch.run at h
    split at h
    · cases h
    · rename_i s1 o h1
      split at h
      · cases h
      · rename_i s2 os h2
        cases h
        rw [ih s1 s' os (fun b hb => hw b (List.mem_cons_of_mem _ hb)) h2]
        exact (Stack.worker_frame (hw a (by simp)) h1).1

theorem get_mismatch {S B : Type} {p : Prefetch.Src S B} {pcfg : Prefetch.Cfg} {k : Nat} (hk : k ≠ pcfg.batchSize) {s s' : Prefetch.St S B}
    {r : Except Exc B} (hc : s.c = .idle) (h : Stack.GetCall p pcfg k s r s') : r = .error .valueError ∧ s'.c = .idle := by
  obtain ⟨w1, w2, s1, o1, b1, _, hr, hx⟩ := h
  have hc1 : s1.c = .idle := by rw [run_frame w1 s s1 o1 (fun a ha => (b1 a ha).1) hr, hc]
  have hact : Prefetch.act p pcfg (.get k) s1 = some (s1, .valueError) := by simp only [Prefetch.act, hc1]; rw [if_pos hk]
  rcases hx with ⟨o, g1, g2⟩ | ⟨s2, s3, o2, o, last, g1, _⟩
  · rw [hact] at g1
    cases g1
    simp only [Stack.answer, Option.some.injEq] at g2
    exact ⟨g2.symm, hc1⟩
  · rw [hact] at g1
    cases g1

theorem not_over {S B : Type} {modern : Bool} {sch : Sched S B} {n : Nat} {pcfg : Prefetch.Cfg} {A : Sampler.ISched (Prefetch.St S B) B}
    (h : Stack.Meets modern (Stack.plainSrc sch n) pcfg A) (s : Prefetch.St S B) : Sampler.episodeOver A s = false := by
  unfold Sampler.episodeOver
  cases hx : Stack.seenEpisodic modern (Stack.plainSrc sch n) with
  | false => rw [h.plain hx]
  | true =>
    obtain ⟨ne, h1, _⟩ := h.episodic hx
    rw [h1]
    rfl

theorem run_mismatch {S F O I : Type} {modern : Bool} {sch : Sched S (Sampler.FlowBatch F)} {n : Nat} {pcfg : Prefetch.Cfg} (g : Sampler.Gen F O I)
    (cfg : Sampler.Cfg) (hk : cfg.ffpb ≠ pcfg.batchSize) : ∀ N (calls : List (Sampler.ISched (Prefetch.St S (Sampler.FlowBatch F)) (Sampler.FlowBatch F) × Sampler.Op))
    (s : Sampler.St (Prefetch.St S (Sampler.FlowBatch F)) F O) outs st, calls.map Prod.snd = List.replicate N .next →
    (∀ q ∈ calls, Stack.Meets modern (Stack.plainSrc sch n) pcfg q.1) → s.cur = none → s.sched.c = .idle →
    Stack.runVia g cfg calls s = some (outs, st) → outs = List.replicate N (.raised .valueError) := by
  intro N
  induction N with
  | zero =>
    intro calls s outs st hc _ _ _ h
    simp only [List.replicate, List.map_eq_nil_iff] at hc
    subst hc
    cases h
    rfl
  | succ N ih =>
    intro calls s outs st hc hm hcur hidle h
    cases calls with
    | nil => cases hc
    | cons q qs =>
      obtain ⟨A, op⟩ := q
      simp only [List.map_cons, List.replicate_succ, List.cons.injEq] at hc
      obtain ⟨rfl, hc⟩ := hc
      have hA := hm (A, .next) (by simp)
      rw [Stack.runVia] at h
      dsimp only at h
      rw [show Stack.returns A s.sched Sampler.Op.next = true from rfl, if_pos rfl] at h
      simp only [Sampler.step, Sampler.next, not_over hA, Bool.false_eq_true, if_false, Sampler.getNext, hcur, Sampler.getNext.fetch] at h
      cases hg : A.getBatch cfg.ffpb s.sched with
      | none => rw [hg] at h; cases h
      | some q =>
        obtain ⟨r, sc⟩ := q
        obtain ⟨rfl, hidle'⟩ := get_mismatch hk hidle (hA.getBatch _ _ _ _ hg)
        rw [hg] at h
        simp only [Option.map_some] at h
        split at h
        · cases h
        · rename_i os s'' h2
          cases h
          rw [ih qs _ os _ hc (fun q hq => hm q (List.mem_cons_of_mem _ hq)) rfl (by exact hidle') h2]
          rfl

theorem runs_mismatch {S F O I : Type} (modern : Bool) (sch : Sched S (Sampler.FlowBatch F)) (n : Nat) (pcfg : Prefetch.Cfg) (g : Sampler.Gen F O I)
    (cfg : Sampler.Cfg) (hk : cfg.ffpb ≠ pcfg.batchSize) : ∀ N
    (s : Sampler.St (Prefetch.St S (Sampler.FlowBatch F)) F O), s.cur = none → s.sched.c = .idle →
    ∃ (calls : List (Sampler.ISched (Prefetch.St S (Sampler.FlowBatch F)) (Sampler.FlowBatch F) × Sampler.Op)) (outs : _) (st : _),
      calls.map Prod.snd = List.replicate N .next ∧
      (∀ q ∈ calls, Stack.Meets modern (Stack.plainSrc sch n) pcfg q.1) ∧ Stack.runVia g cfg calls s = some (outs, st) := by
  have hM := Stack.scripted_meets modern (Stack.plainSrc sch n) pcfg (w1 := []) (w2 := []) (w3 := []) (ds := []) Stack.background_nil
    Stack.background_nil Stack.background_nil (by simp)
  intro N
  induction N with
  | zero => intro s _ _; exact ⟨[], [], s, rfl, by simp, rfl⟩
  | succ N ih =>
    intro s hcur hidle
    have hg : (Stack.scripted modern (Stack.plainSrc sch n) pcfg [] [] [] []).getBatch cfg.ffpb s.sched = some (.error .valueError, s.sched) := by
      simp [Stack.scripted, Prefetch.run, Prefetch.act, hidle, hk, Stack.answer]
    obtain ⟨calls, outs, st, h1, h2, h3⟩ := ih { s with generated := 0 } hcur hidle
    refine ⟨(Stack.scripted modern (Stack.plainSrc sch n) pcfg [] [] [] [], .next) :: calls, .raised .valueError :: outs, st,
      by rw [List.map_cons, h1]; rfl, ?_, ?_⟩
    · intro q hq
      rcases List.mem_cons.mp hq with rfl | hq
      · exact hM
      · exact h2 q hq
    · rw [Stack.runVia]
      dsimp only
      rw [show Stack.returns _ s.sched Sampler.Op.next = true from rfl, if_pos rfl]
      simp only [Sampler.step, Sampler.next, not_over hM, Bool.false_eq_true, if_false, Sampler.getNext, hcur, Sampler.getNext.fetch, hg,
        Option.map_some]
      rw [hcur] at h3
      rw [h3]
      rfl

theorem buffered_mismatch {D : Type} (E : Env) (w : Base.World ℚ D KeyTerm) (fuel : Nat) (modern : Bool) (a : Synthetic.Args) (m : Synthetic.Made)
    (c : Base.Cfg) (fl : List String) (key : KeyTerm) (pcfg : Prefetch.Cfg) (hk : m.cfg.ffpb ≠ pcfg.batchSize) (N : Nat) :
    (∃ outs, BufferedOn E w fuel modern a m c fl key pcfg (List.replicate N .next) outs) ∧
    ∀ outs, BufferedOn E w fuel modern a m c fl key pcfg (List.replicate N .next) outs → outs = List.replicate N (.raised .valueError) := by
  refine ⟨?_, ?_⟩
  · obtain ⟨calls, outs, st, h1, h2, h3⟩ := runs_mismatch modern (Synthetic.fieldSched w c fuel) pcfg.batchSize pcfg
      (Synthetic.gen E.fl E.fl32 E.rand a m) m.cfg hk N (Sampler.init m.cfg (Prefetch.init (Base.init w c fl key))) rfl rfl
    exact ⟨outs, calls, st, h1, h2, h3⟩
  · rintro outs ⟨calls, st, h1, h2, h3⟩
    exact run_mismatch _ _ hk N calls _ outs st h1 h2 rfl rfl h3

theorem isInt_same {d : Make.Dict} {k : String} {x y : Int} (hx : Has d k (IsInt x)) (hy : Has d k (IsInt y)) : x = y := by
  obtain ⟨v, g1, g2⟩ := hx
  obtain ⟨v', g3, g4⟩ := hy
  rw [g3] at g1
  cases g1
  have := g2.symm.trans g4
  simpa using this

/-- With another `flow_fields_per_batch` than `batch_size`, a buffer makes every `next()` raise: the prefetching scheduler is made for
`batch_size` flow fields, and the sampler asks for `flow_fields_per_batch`. -/
theorem C119_mismatch (E : Env) (d d' : Make.Dict) (hs : SameBut d d') (n : Int) (hn : 0 < n)
    (hbuf : Make.Spec.NatOption d "buffer_size" n) (kind : Make.Kind) (hp : Plain d' kind false) (s' : Make.Smp)
    (h' : Make.make (world E) (.dict d') = .ok s') (fpb b : Nat) (hf : Has d' "flow_fields_per_batch" (IsInt fpb)) (hb : Has d' "batch_size" (IsInt b))
    (hne : fpb ≠ b) :
    ∃ s, Make.make (world E) (.dict d) = .ok s ∧ ∀ fuel modern N, (∃ outs, BufferedRuns E fuel modern (List.replicate N .next) s outs) ∧
      ∀ outs, BufferedRuns E fuel modern (List.replicate N .next) s outs → outs = List.replicate N (.raised .valueError) := by
  obtain ⟨s, files, c, a, m, g1, g2, g3, g4, g5, g6, hsz, g8, hrun, hsyn⟩ := synth_made E d d' hs n hn hbuf kind hp s' h'
  refine ⟨s, g1, ?_⟩
  intro fuel modern N
  simp only [hrun]
  have hk : m.cfg.ffpb ≠ a.spec.batchSize := by
    have e1 : (fpb : Int) = a.ffpb := isInt_same hf g5.ffpb
    have e2 : (b : Int) = a.spec.batchSize := isInt_same hb g5.batchSize
    have := hsz.ffpb
    omega
  cases kind with
  | h5 => exact buffered_mismatch E (h5World E) fuel modern a m c files _ _ hk N
  | mat => exact buffered_mismatch E (Formats.matWorld E.mat ⟨false, 256, 256⟩ KeyTerm.split2 E.perm) fuel modern a m c files _ _ hk N
  | npy => exact buffered_mismatch E (Formats.npWorld E.np false KeyTerm.split2 E.perm) fuel modern a m c files _ _ hk N

/-! ## Configurations that meet the hypotheses -/

theorem sameBut_cons (d : Make.Dict) (v : Val) : SameBut (("buffer_size", v) :: d) d := by
  intro k hk
  have : (k == "buffer_size") = false := by simpa using hk
  simp [List.lookup, this]

theorem demo_plain : Plain demoDict .h5 false :=
  ⟨rfl, .inl ⟨rfl, rfl⟩, ⟨by decide, .inl ⟨rfl, rfl⟩⟩, ⟨by decide, .inl ⟨rfl, rfl⟩⟩⟩

theorem ok_of_isOk {α : Type} {r : Except Exc α} (h : (match r with | .ok _ => true | .error _ => false) = true) : ∃ a, r = .ok a := by
  cases r with
  | ok a => exact ⟨a, rfl⟩
  | error e => cases h

/-- `buffer_size` alone decides between a batch and an exception: with three images per batch from two flow fields, the sampler without a
buffer delivers, the one with a buffer raises whatever the worker does. -/
theorem C119_refuted : ∃ s s', Make.make (world demoEnv) (.dict (("buffer_size", .int 2) :: demoDict)) = .ok s ∧
    Make.make (world demoEnv) (.dict demoDict) = .ok s' ∧ (∃ b, synthRun demoEnv 6 [.next] s' = some [.batch b]) ∧
    ∀ fuel modern, (∃ outs, BufferedRuns demoEnv fuel modern [.next] s outs) ∧
      ∀ outs, BufferedRuns demoEnv fuel modern [.next] s outs → outs = [.raised .valueError] := by
  obtain ⟨s', hs'⟩ := ok_of_isOk (r := Make.make (world demoEnv) (.dict demoDict)) (by decide +kernel)
  obtain ⟨s, h1, h2⟩ := C119_mismatch demoEnv (("buffer_size", .int 2) :: demoDict) demoDict (sameBut_cons _ _) 2 (by decide)
    ⟨by decide, .inr ⟨_, rfl, rfl⟩⟩ .h5 demo_plain s' hs' 2 3 ⟨_, rfl, rfl⟩ ⟨_, rfl, rfl⟩ (by decide)
  refine ⟨s, s', h1, hs', ?_, fun fuel modern => h2 fuel modern 1⟩
  have : (match Make.make (world demoEnv) (.dict demoDict) with
    | .ok x => (match synthRun demoEnv 6 [.next] x with | some [.batch _] => true | _ => false)
    | .error _ => false) = true := by decide +kernel
  rw [hs'] at this
  dsimp only at this
  split at this
  · rename_i b hb
    exact ⟨b, hb⟩
  · cases this

/-- `demoDict` with two images per batch. -/
def demoEven : Make.Dict := demoDict.map (fun q => if q.1 = "batch_size" then (q.1, .int 2) else q)

theorem demo_sound : Sound demoEnv .h5 ["a.h5", "x.h5", "b.h5"] true := by
  refine ⟨12, 12, 2, demoContent, ?_, fun _ => by decide +kernel⟩
  intro p hp
  simp only [List.mem_cons, List.not_mem_nil, or_false] at hp
  rcases hp with rfl | rfl | rfl
  · exact ⟨⟨"flow", [], rfl⟩, ⟨2, rfl⟩, by unfold Arr.WF; decide +kernel⟩
  · intro items h
    cases h
  · exact ⟨⟨"flow", [], rfl⟩, ⟨1, rfl⟩, by unfold Arr.WF; decide +kernel⟩

/-- With a buffer, three calls of `next()` on the sampler made from `demoEven` can show something, and whatever they show is what they
show without. -/
example : ∃ s s', Make.make (world demoEnv) (.dict (("buffer_size", .int 2) :: demoEven)) = .ok s ∧
    Make.make (world demoEnv) (.dict demoEven) = .ok s' ∧ ∀ modern ops, (modern = true → .nextEpisode ∉ ops) →
      (∃ outs, BufferedRuns demoEnv 7 modern ops s outs) ∧ ∀ outs, BufferedRuns demoEnv 7 modern ops s outs →
        ∃ outs' φ, synthRun demoEnv 7 ops s' = some outs' ∧ outs = outs'.map (Stack.withDone φ) := by
  obtain ⟨s', hs'⟩ := ok_of_isOk (r := Make.make (world demoEnv) (.dict demoEven)) (by decide +kernel)
  obtain ⟨s, files, rnd, lp, a, m, h1, h2, h3, h4, h5, h6, h7, h8⟩ := C119_synthetic_partial demoEnv (("buffer_size", .int 2) :: demoEven) demoEven
    (sameBut_cons _ _) 2 (by decide) ⟨by decide, .inr ⟨_, rfl, rfl⟩⟩ .h5
    ⟨rfl, .inl ⟨rfl, rfl⟩, ⟨by decide, .inl ⟨rfl, rfl⟩⟩, ⟨by decide, .inl ⟨rfl, rfl⟩⟩⟩ s' hs'
  have hfiles : files = ["a.h5", "x.h5", "b.h5"] := by
    obtain ⟨paths, e1, e2, _⟩ := h2
    have hpaths : paths = ["a.h5", "x.h5", "b.h5"] := by
      have : ([Val.str "a.h5", .str "x.h5", .str "b.h5"] : List Val) = paths.map .str := by
        simpa [demoEven, demoDict, List.lookup] using e1
      match paths, this with
      | [p, q, r], this => simpa using this.symm
    subst hpaths
    cases e2 with
    | dir h1 h2 => exact absurd (by assumption : (demoEnv.fs .h5).isDir _ = true) (by decide)
    | file _ e2 =>
    cases e2 with
    | dir h1 h2 => exact absurd (by assumption : (demoEnv.fs .h5).isDir _ = true) (by decide)
    | file _ e2 =>
    cases e2 with
    | dir h1 h2 => exact absurd (by assumption : (demoEnv.fs .h5).isDir _ = true) (by decide)
    | file _ e2 =>
    cases e2
    rfl
  subst hfiles
  have hrnd : rnd = false := by
    rcases h3 with ⟨_, h⟩ | h
    · simpa using h
    · cases h
  have hlp : lp = true := by
    rcases h4 with ⟨_, h⟩ | h
    · simpa using h
    · cases h
  subst hrnd hlp
  refine ⟨s, s', h1, hs', fun modern ops hn => ?_⟩
  obtain ⟨g1, g2⟩ := h8 ((isInt_same (x := a.ffpb) (y := 2) h5.ffpb ⟨.int 2, rfl, rfl⟩).trans
    (isInt_same (x := 2) ⟨.int 2, rfl, rfl⟩ h5.batchSize)) demo_sound (by simp) 7 (by decide) modern ops
  refine ⟨g1, fun outs ho => ?_⟩
  obtain ⟨outs', e1, e2⟩ := g2 (by simp) hn outs ho
  exact ⟨outs', _, e1, e2⟩

/-- The same for the images of the MAT files. -/
example := C119_real_partial demoEnv (("buffer_size", .int 2) :: demoReal) demoReal (sameBut_cons _ _) 2 (by decide)
  ⟨by decide, .inr ⟨_, rfl, rfl⟩⟩ ⟨rfl, .inr rfl, ⟨by decide, .inl ⟨rfl, rfl⟩⟩, ⟨by decide, .inl ⟨rfl, rfl⟩⟩⟩

end Verif.Whole
