import Verif.Props.Buffered
import Verif.Props.Episodes
import Verif.Proofs.StackLiveEpisodes
import Verif.Spec.BufferedEpisodes
/-!
# Property C121: episodes with a buffer
-/

namespace Verif.Whole
open Verif Verif.Whole.Spec

/-! ## What `make` builds -/

theorem make_flag (fl fl32 : ℚ → ℚ) (s : Synthetic.Args) (x : Bool) : Synthetic.make fl fl32 { s with isEpisodic := x } =
    (Synthetic.make fl fl32 s).map (fun m => { m with cfg := { m.cfg with bpfb := if x && s.bpfb != 1 then 1 else s.bpfb.toNat } }) := by
  unfold Synthetic.make Sampler.Cfg.make
  rw [show Synthetic.maskOK { s with isEpisodic := x } = Synthetic.maskOK s from rfl,
    show Synthetic.histogramOK { s with isEpisodic := x } = Synthetic.histogramOK s from rfl,
    show Synthetic.Args.geometry { s with isEpisodic := x } = Synthetic.Args.geometry s from rfl]
  dsimp only
  split
  · rfl
  split
  · rfl
  split
  · rfl
  split_ifs <;> try rfl
  all_goals
    dsimp only
    cases s.pixels with
    | none => rfl
    | some px =>
      dsimp only
      cases Geometry.build fl fl32 s.geometry <;> rfl

theorem bind_map_step {α β γ : Type} {o : Option α} {f : α → Option γ} {f' : α → Option β} {g : β → γ} (h : ∀ a, f a = (f' a).map g) :
    (o >>= f) = (o >>= f').map g := by
  cases o with
  | none => rfl
  | some a => exact h a

theorem synthArgs_buffered (E : Env) (p : Make.Pipe) (b n : Int) (sa : Make.SynthArgs) :
    synthArgs E (.prefetch p b n) sa = (synthArgs E p sa).map (fun s => { s with isEpisodic := false }) := by
  unfold synthArgs threeOf
  rw [pipeShape_prefetch]
  iterate 15 refine bind_map_step fun _ => ?_
  rfl

/-- The sampler over the prefetching scheduler is the one over the scheduler, except that `batches_per_flow_batch` is not replaced. -/
theorem synthBuild_buffered (E : Env) (p : Make.Pipe) (b n : Int) (sa : Make.SynthArgs) :
    synthBuild E (.prefetch p b n) sa = (synthBuild E p sa).map (fun q =>
      ({ q.1 with isEpisodic := false }, { q.2 with cfg := { q.2.cfg with bpfb := q.1.bpfb.toNat } })) := by
  unfold synthBuild
  rw [synthArgs_buffered]
  cases synthArgs E p sa with
  | none => rfl
  | some s =>
    simp only [Option.map_some, make_flag]
    cases Synthetic.make E.fl E.fl32 s <;> rfl

theorem synthInit_buffered (E : Env) (p : Make.Pipe) (b n : Int) (sa : Make.SynthArgs) :
    (world E).synthInit (.prefetch p b n) sa = (world E).synthInit p sa := by
  simp only [world, synthBuild_buffered]
  cases synthBuild E p sa <;> rfl

theorem synthFromConfig_buffered {E : Env} {d d' : Make.Dict} (h : SameBut d d') (p : Make.Pipe) (b n : Int) :
    Make.synthFromConfig (world E) (.prefetch p b n) d = (Make.synthFromConfig (world E) p d').map (buffered b n) := by
  unfold Make.synthFromConfig
  simp only [getD_same h, item_same h, ne_eq, String.reduceEq, not_false_eq_true, andThen_map, synthInit_buffered]
  rfl

theorem finish_buffered {E : Env} {d d' : Make.Dict} (h : SameBut d d') (images : Bool) (b l n : Int) (p : Make.Pipe) :
    Make.finish (world E) d images b l (.prefetch p b n) = (Make.finish (world E) d' images b l p).map (buffered b n) := by
  unfold Make.finish
  rw [getD_same h _ (by decide), synthFromConfig_buffered h]
  cases images
  · simp only [Bool.false_eq_true, if_false]
    split
    · rfl
    · rw [andThen_map]
  · simp only [if_true, andThen_map]
    rfl

/-- **C121**, what is built: for configurations that differ only in `buffer_size`, with or without episodes, `make` succeeds with a buffer
exactly if it does without, raises the same exception otherwise, and what it returns differs only by a prefetching scheduler with that much
room in front of the scheduler. -/
theorem C121_built (E : Env) (d d' : Make.Dict) (hs : SameBut d d') (n : Int) (hn : 0 < n) (hbuf : Make.Spec.NatOption d "buffer_size" n)
    (hno : Make.Spec.NatOption d' "buffer_size" 0) :
    ∃ b, (∀ s', Make.make (world E) (.dict d') = .ok s' → Has d "batch_size" (IsInt b)) ∧
      Make.make (world E) (.dict d) = (Make.make (world E) (.dict d')).map (buffered b n) := by
  have hb1 : Make.sizeOption d "buffer_size" = .ok n := Make.sizeOption_ok.2 hbuf
  have hb2 : Make.sizeOption d' "buffer_size" = .ok 0 := Make.sizeOption_ok.2 hno
  refine ⟨(((d'.lookup "batch_size").bind Val.asInt).getD 0), ?_, ?_⟩
  · intro s' h'
    have : Make.fromDict (world E) d' = .ok s' := h'
    unfold Make.fromDict at this
    split at this
    · cases this
    · rw [Make.andThen_ok] at this
      obtain ⟨_, _, this⟩ := this
      split at this
      · cases this
      · rename_i bs hbs
        split at this
        · cases this
        · rename_i b hb
          refine ⟨bs, by rw [hs _ (by decide)]; exact hbs, ?_⟩
          rw [hbs]
          simp only [Option.bind_some, hb, Option.getD_some]
          exact hb
  · show Make.fromDict (world E) d = (Make.fromDict (world E) d').map _
    unfold Make.fromDict
    simp only [getD_same hs, sizeOption_same hs, hs _ (show "scheduler_class" ≠ "buffer_size" by decide), hs _ (show "batch_size" ≠ "buffer_size" by decide),
      hs _ (show "flow_fields_per_batch" ≠ "buffer_size" by decide), ne_eq, String.reduceEq, not_false_eq_true, hb1, hb2]
    cases h1 : d'.lookup "scheduler_class" with
    | none => rfl
    | some cls =>
      simp only [andThen_map]
      congr 1
      funext kind
      cases h2 : d'.lookup "batch_size" with
      | none => rfl
      | some bs =>
        dsimp only
        cases h3 : bs.asInt with
        | none => rfl
        | some b =>
          simp only [raiseIf_map, Option.bind_some, h3, Option.getD_some]
          congr 1
          cases h4 : Make.getD d' "include_images" (.bool false) with
          | bool images =>
            dsimp only
            simp only [Make.andThen_okv, andThen_map, raiseIf_map, Make.withPrefetch, hn, if_true, lt_irrefl, if_false, finish_buffered hs]
          | _ => rfl

/-! ## The prefetching scheduler over the episodes -/

section
variable {D K Key B : Type} {w : Base.World ℚ D K} {frame : String → Base.Sample ℚ} {bcfg : Base.Cfg} {glob : String → List String} {dirs : List String}
  {rng : Episodic.Rng Key} {cfg : Episodic.Cfg} {fsh : List Nat} {o1 o2 : Option (List Nat)}

theorem _root_.Verif.Episodes.Setting.serve_view (h : Episodes.Setting w frame bcfg glob dirs rng cfg fsh o1 o2) (post : Base.Batch ℚ → B) {key : Key} {k t : Nat}
    {e : Episodic.St (Base.St D K) Key} (ha : Episodes.At w frame rng cfg key k t e) (ht : t < cfg.episodeLength) {fuel : Nat}
    (hf : cfg.episodeLength * cfg.batchSize ≤ fuel) :
    ∃ b s', (Stack.viewSched post 0 w bcfg fuel).getBatch cfg.batchSize e.inner = some (.ok b, s') ∧
      Episodes.At w frame rng cfg key k (t + 1) { e with t := e.t + 1, inner := s' } := by
  obtain ⟨b, s', h1, _, h3⟩ := h.serve ha ht hf
  exact ⟨post b, s', by simp [Stack.viewSched, h1, Except.map], h3⟩

/-- Where the scheduler can be. -/
theorem _root_.Verif.Episodes.Setting.reached (h : Episodes.Setting w frame bcfg glob dirs rng cfg fsh o1 o2) (post : Base.Batch ℚ → B) {key : Key} {fuel : Nat}
    (hf : cfg.episodeLength * cfg.batchSize ≤ fuel) (hno : ∀ k, Episodes.NoRepeat cfg.episodeLength (Episodes.drawn rng cfg key k)) :
    ∀ (ops : List Episodic.Op) (outs : List (Episodic.Out B)) (e0 e : Episodic.St (Base.St D K) Key) (k t : Nat), Episodes.At w frame rng cfg key k t e0 →
      Episodic.run (Stack.viewSched post 0 w bcfg fuel) rng cfg ops e0 = some (outs, e) → Episodic.Op.iter ∉ ops →
      ∃ k' t', Episodes.At w frame rng cfg key k' t' e := by
  intro ops
  induction ops with
  | nil =>
    intro outs e0 e k t ha hr _
    simp only [Episodic.run, Option.some.injEq, Prod.mk.injEq] at hr
    rw [← hr.2]
    exact ⟨k, t, ha⟩
  | cons op ops ih =>
    intro outs e0 e k t ha hr hit
    simp only [List.mem_cons, not_or] at hit
    unfold Episodic.run at hr
    split at hr
    · cases hr
    · rename_i o e1 hst
      split at hr
      · cases hr
      · rename_i os e2 hrn
        simp only [Option.some.injEq, Prod.mk.injEq] at hr
        obtain ⟨_, rfl⟩ := hr
        suffices hx : ∃ k' t', Episodes.At w frame rng cfg key k' t' e1 by
          obtain ⟨k', t', hx⟩ := hx
          exact ih os e1 e2 k' t' hx hrn hit.2
        cases op with
        | iter => exact absurd rfl hit.1
        | restart =>
          obtain ⟨e', h1, h2⟩ := h.restart ha (hno (k + 1)) (sch := Stack.viewSched post 0 w bcfg fuel) (fun _ _ => rfl)
          simp only [Episodic.step, h1, Option.some.injEq, Prod.mk.injEq] at hst
          rw [← hst.2]
          exact ⟨_, _, h2⟩
        | getBatch n =>
          simp only [Episodic.step, Episodic.getBatch] at hst
          by_cases hn : n ≠ cfg.batchSize
          · rw [if_pos hn] at hst
            simp only [Option.some.injEq, Prod.mk.injEq] at hst
            rw [← hst.2]
            exact ⟨_, _, ha⟩
          · rw [if_neg hn] at hst
            by_cases ht : cfg.episodeLength ≤ e0.t
            · rw [if_pos ht] at hst
              simp only [Option.some.injEq, Prod.mk.injEq] at hst
              rw [← hst.2]
              exact ⟨_, _, ha⟩
            · rw [if_neg ht] at hst
              have hnn : n = cfg.batchSize := by simpa using hn
              obtain ⟨b, s', hb, hJ'⟩ := h.serve_view post ha (by have := ha.step; omega) hf
              rw [hnn, hb] at hst
              simp only [Option.some.injEq, Prod.mk.injEq] at hst
              rw [← hst.2]
              exact ⟨_, _, hJ'⟩

/-- What C83 asks of the scheduler. -/
theorem _root_.Verif.Episodes.Setting.source (h : Episodes.Setting w frame bcfg glob dirs rng cfg fsh o1 o2) (post : Base.Batch ℚ → B) {key : Key} {fuel : Nat}
    (hf : cfg.episodeLength * cfg.batchSize ≤ fuel) (hno : ∀ k, Episodes.NoRepeat cfg.episodeLength (Episodes.drawn rng cfg key k))
    {e0 : Episodic.St (Base.St D K) Key} {k : Nat} (ha : Episodes.At w frame rng cfg key k 0 e0) :
    (∀ e, Stack.Reached (Stack.viewSched post 0 w bcfg fuel) rng cfg e0 e → e.t < cfg.episodeLength →
      ∃ b s', (Stack.viewSched post 0 w bcfg fuel).getBatch cfg.batchSize e.inner = some (.ok b, s')) ∧
    (∀ s r s' l, (Stack.viewSched post 0 w bcfg fuel).getBatch cfg.batchSize s = some (r, s') →
      (Stack.viewSched post 0 w bcfg fuel).reset ((Stack.viewSched post 0 w bcfg fuel).setFileList l s') =
        (Stack.viewSched post 0 w bcfg fuel).reset ((Stack.viewSched post 0 w bcfg fuel).setFileList l s)) ∧
    Stack.Playable (Stack.episodicSrc (Stack.viewSched post 0 w bcfg fuel) rng cfg) cfg.episodeLength
      (fun t e => ∃ k, Episodes.At w frame rng cfg key k t e) := by
  refine ⟨?_, ?_, ?_⟩
  · rintro e ⟨ops, outs, hr, hit⟩ hlt
    obtain ⟨k', t', hx⟩ := h.reached post hf hno ops outs e0 e k 0 ha hr hit
    obtain ⟨b, s', hb, _⟩ := h.serve_view post hx (by have := hx.step; omega) hf
    exact ⟨b, s', hb⟩
  · intro s r s' l hg
    simp only [Stack.viewSched, Option.map_eq_some_iff, Prod.mk.injEq] at hg
    obtain ⟨q, hq, _, rfl⟩ := hg
    obtain ⟨_, h2⟩ := Stack.getBatch_keep (.inr h.rand) (r := q.1) (s' := q.2) hq
    simp [Stack.viewSched, Base.reset, Base.shuffle, h.rand, h2]
  · have hnx : ∀ t e, (∃ k, Episodes.At w frame rng cfg key k t e) → ∃ e', Episodic.nextEpisode (Stack.viewSched post 0 w bcfg fuel) rng cfg e = .ok e' ∧
        ∃ k, Episodes.At w frame rng cfg key k 0 e' := by
      rintro t e ⟨k, hx⟩
      obtain ⟨e', h1, h2⟩ := h.restart hx (hno (k + 1)) (sch := Stack.viewSched post 0 w bcfg fuel) (fun _ _ => rfl)
      exact ⟨e', h1, _, h2⟩
    refine ⟨rfl, h.cfgOK.lpos, ?_, ?_, ?_, ?_⟩
    · rintro t e ht ⟨k, hx⟩
      obtain ⟨b, s', hb, hx'⟩ := h.serve_view post hx ht hf
      refine ⟨b, _, ?_, k, hx'⟩
      have : ¬ cfg.episodeLength ≤ e.t := by have := hx.step; omega
      simp only [Stack.episodicSrc, Episodic.getBatch, ne_eq, not_true_eq_false, if_false, this, hb, Option.getD_some]
    · rintro e ⟨k, hx⟩
      have : cfg.episodeLength ≤ e.t := by have := hx.step; omega
      simp only [Stack.episodicSrc, Episodic.getBatch, ne_eq, not_true_eq_false, if_false, this, if_true, Option.getD_some]
    · intro t e hx
      obtain ⟨e', h1, h2⟩ := hnx t e hx
      simp only [Stack.episodicSrc, h1]
      exact h2
    · intro t e hx
      obtain ⟨e', h1, h2⟩ := hnx t e hx
      simp only [Stack.episodicSrc, h1]
      exact h2

end

/-! ## The samplers -/

theorem bufferedEpisodes_on {E : Env} {ba : Make.BaseArgs} {b l b' n : Int} {k : KeyTerm} {sa : Make.SynthArgs} {fl : List String} {c : Base.Cfg}
    {s : Synthetic.Args} {m : Synthetic.Made} {ecfg : Episodic.Cfg} {fuel : Nat} {e : Episodic.St (Base.St (Base.Sample ℚ) KeyTerm) KeyTerm}
    (h1 : buildBase E ba = .ok (fl, c)) (h2 : synthBuild E (.prefetch (.episodic (.base ba) b l k) b' n) sa = .ok (s, m))
    (h3 : Episodic.init (Synthetic.fieldSched (matWorld E ba) c fuel) ⟨KeyTerm.split2, E.choice⟩ E.os E.matFiles (some b) (some l)
      (Base.init (matWorld E ba) c fl ba.usedKey) k = .ok (ecfg, e)) (modern : Bool) (ops : List Sampler.Op)
    (outs : List (Sampler.Out (Sampler.OutBatch (Adapter.Field2 ℚ) Synthetic.Pair))) :
    BufferedEpisodes E fuel modern ops (.synthetic (.prefetch (.episodic (.base ba) b l k) b' n) sa) outs ↔
      ∃ (calls : List (Sampler.ISched (Prefetch.St (Episodic.St (Base.St (Base.Sample ℚ) KeyTerm) KeyTerm) (Sampler.FlowBatch (Adapter.Field2 ℚ)))
          (Sampler.FlowBatch (Adapter.Field2 ℚ)) × Sampler.Op)) (st : _),
        calls.map Prod.snd = ops ∧
        (∀ q ∈ calls, Stack.Meets modern (Stack.episodicSrc (Synthetic.fieldSched (matWorld E ba) c fuel) ⟨KeyTerm.split2, E.choice⟩ ecfg)
          ⟨b'.toNat, n.toNat⟩ q.1) ∧
        Stack.runVia (Synthetic.gen E.fl E.fl32 E.rand s m) m.cfg calls (Sampler.init m.cfg (Prefetch.init e)) = some (outs, st) := by
  constructor
  · rintro ⟨ba', b1, l1, k1, b1', n1, sa1, fl1, c1, s1, m1, ecfg1, e1, hs, g1, g2, g3, hcalls⟩
    cases hs
    rw [h1] at g1
    cases g1
    rw [h2] at g2
    cases g2
    rw [h3] at g3
    cases g3
    exact hcalls
  · intro hcalls
    exact ⟨ba, b, l, k, b', n, sa, fl, c, s, m, ecfg, e, rfl, h1, h2, h3, hcalls⟩

theorem bufferedRealEpisodes_on {E : Env} {ba : Make.BaseArgs} {b l b' n size : Int} {k : KeyTerm} {fl : List String} {c : Base.Cfg}
    {ecfg : Episodic.Cfg} {fuel : Nat} {e : Episodic.St (Base.St (Base.Sample ℚ) KeyTerm) KeyTerm} (h1 : buildBase E ba = .ok (fl, c))
    (h3 : Episodic.init (Base.sched 0 (matWorld E ba) c fuel) ⟨KeyTerm.split2, E.choice⟩ E.os E.matFiles (some b) (some l)
      (Base.init (matWorld E ba) c fl ba.usedKey) k = .ok (ecfg, e)) (modern : Bool) (ops : List Sampler.Op)
    (outs : List (Sampler.Out (Sampler.RealBatch ℚ))) :
    BufferedRealEpisodes E fuel modern ops (.real (.prefetch (.episodic (.base ba) b l k) b' n) size) outs ↔
      ∃ (calls : List (Sampler.ISched (Prefetch.St (Episodic.St (Base.St (Base.Sample ℚ) KeyTerm) KeyTerm) (Base.Batch ℚ)) (Base.Batch ℚ) × Sampler.Op))
        (st : _), calls.map Prod.snd = ops ∧
        (∀ q ∈ calls, Stack.Meets modern (Stack.episodicSrc (Base.sched 0 (matWorld E ba) c fuel) ⟨KeyTerm.split2, E.choice⟩ ecfg)
          ⟨b'.toNat, n.toNat⟩ q.1) ∧
        Stack.realVia size.toNat calls (Prefetch.init e) = some (outs, st) := by
  constructor
  · rintro ⟨ba', b1, l1, k1, b1', n1, sz, fl1, c1, ecfg1, e1, hs, g1, g3, hcalls⟩
    cases hs
    rw [h1] at g1
    cases g1
    rw [h3] at g3
    cases g3
    exact hcalls
  · intro hcalls
    exact ⟨ba, b, l, k, b', n, size, fl, c, ecfg, e, rfl, h1, h3, hcalls⟩

theorem same_int {d : Make.Dict} {k : String} {a b : Int} (h1 : Has d k (IsInt a)) (h2 : Has d k (IsInt b)) : a = b := by
  obtain ⟨v, g1, g2⟩ := h1
  obtain ⟨v', g3, g4⟩ := h2
  rw [g3] at g1
  cases g1
  simpa using g2.symm.trans g4

/-- **C121**, synthetic images (partial): for a configuration that asks for episodes of `L` frames and for a buffer, `make` builds a sampler
if it does without the buffer. If then every file can be read, as many flow fields as elements make up a batch, `batches_per_flow_batch` is 1
and no episode repeats a file from one frame to the next, the calls on it can return, whatever they are, and a history of `next()`,
`next_episode()` and `reset(scheduler_reset=False)` beginning with `next()` shows, under every interleaving of the worker with the calls
in which no timeout strikes while the worker is alive, what it shows without the buffer: the frames of the drawn episodes in order, with the
`done` flags, then `EpisodeEnd` until the next episode. Missing: other values of `batches_per_flow_batch` (`C121_refuted`), `next_episode()`
before the first batch (`Stack.C83_refuted_first`), full resets (`Stack.C83_refuted_reset`), unreadable files, timeouts. -/
theorem C121_synthetic_partial (E : Env) (d d' : Make.Dict) (hs : SameBut d d') (n : Int) (hn : 0 < n) (hbuf : Make.Spec.NatOption d "buffer_size" n)
    (s' : Make.Smp) (h : Make.make (world E) (.dict d') = .ok s') (L : Nat) (hp : WithEpisodes d' false L)
    (hrnd : Make.Spec.ValueOr d' "randomize" (.bool false) (.bool false)) (hset : LeafDirs.SetIter E.os.iterSet) (hpil : Formats.PilOK E.mat) :
    ∃ s files dirs k a m, Make.make (world E) (.dict d) = .ok s ∧
      FilesOf E .mat d' files ∧ LeafDirsOf E files dirs ∧ Has d' "batch_size" (IsInt (k : Nat)) ∧ 0 < k ∧ Configured E d' a ∧
      Synthetic.make E.fl E.fl32 a = .ok m ∧
      (Ordinary E.mat (dirs.flatMap E.matFiles) → ∃ content, MatContents E.mat 256 256 (dirs.flatMap E.matFiles) content ∧
        ((∀ p ∈ dirs.flatMap E.matFiles, content p ≠ []) → Episodic.ChoiceOK (Key := KeyTerm) ⟨KeyTerm.split2, E.choice⟩ → m.cfg.ffpb = k →
          a.ndevices ∣ k → a.bpfb = 1 → ∃ draws, Draws E dirs L k draws ∧ ((∀ j, Episodes.NoRepeat L (draws j)) → ∀ fuel, L * k ≤ fuel →
            ∀ modern ops, (∃ outs, BufferedEpisodes E fuel modern ops s outs) ∧
              ∀ rest, ops = .next :: rest → .reset true ∉ rest → ∀ outs, BufferedEpisodes E fuel modern ops s outs →
                synthEpisodes E fuel ops s' = some outs ∧
                Episodes.Plays L (fun k t i x =>
                  SynthAny.MadeOf (Synthetic.gen E.fl E.fl32 E.rand a m) m.cfg 256 256 i (SynthAny.fieldsOf content (stepFiles (draws k) t)) x ∧
                  x.done = Episodes.doneFlags L m.cfg.batchSize t ∧
                  (E.fl = id → E.fl32 = id → Generate.Lawful E.rand → Synthetic.WellFormed a m.cfg.batchSize x)) 0 0 0 ops outs))) := by
  obtain ⟨b, hb, hmake⟩ := C121_built E d d' hs n hn hbuf hp.noBuffer
  rw [h] at hmake
  obtain ⟨files, dirs, c, key, cfg, a, m, f1, f2, f3, f4, f5, f6, f7, f8, f9, f10, ba, sa, rfl, q1, q2, q3, q4, q5⟩ :=
    synth_episodes_parts (arg := .dict d') rfl h hp hrnd
  have hbb : b = (cfg.batchSize : Int) := by
    refine same_int (d := d') (k := "batch_size") ?_ f3
    obtain ⟨v, g1, g2⟩ := hb _ h
    exact ⟨v, by rw [← hs _ (by decide)]; exact g1, g2⟩
  subst hbb
  subst f10
  refine ⟨_, files, dirs, cfg.batchSize, a, m, hmake, f1, leafDirsOf hset f2, f3, f9.pos, f4, f5, ?_⟩
  intro ho
  have hmc := mat_contents hpil (show 0 < 256 by omega) (show 0 < 256 by omega) ho
  have hread := mat_reads hpil (show 0 < 256 by omega) (show 0 < 256 by omega) ho KeyTerm.split2 E.perm
  generalize hcont : matContent E.mat ⟨false, 256, 256⟩ = content at hmc hread
  refine ⟨content, hmc, ?_⟩
  intro hne hch hff hdv hbp
  have hone : ∀ p ∈ dirs.flatMap E.matFiles, ∃ v, content p = [v] := by
    intro p hp
    rcases hmc p hp with ⟨_, _, v, e, _⟩ | ⟨e, _⟩
    · exact ⟨v, e⟩
    · exact absurd e (hne p hp)
  have hD : Draws E dirs cfg.episodeLength cfg.batchSize (Episodes.drawn (⟨KeyTerm.split2, E.choice⟩ : Episodic.Rng KeyTerm) cfg key) :=
    fun k => ⟨Episodes.drawn_length f9 hch key k, Episodes.drawn_episode f9 hch key k⟩
  refine ⟨Episodes.drawn ⟨KeyTerm.split2, E.choice⟩ cfg key, hD, ?_⟩
  intro hno fuel hfuel modern ops
  obtain ⟨e, hin, he⟩ := q5 fuel
  obtain ⟨hS, hat, outs', st', r1, r2⟩ := synth_plays f4 f5 f6 f8 f9 hread hone hch hff hdv key hD hfuel ops (fun k _ => hno k) he
  have hm' : ({ m with cfg := { m.cfg with bpfb := a.bpfb.toNat } } : Synthetic.Made) = m := by
    have h1 := (episodeSizes_of_make f5 f6).bpfb
    rw [hbp]
    obtain ⟨cfg', g, o, p⟩ := m
    obtain ⟨⟩ := cfg'
    simp only at h1
    have h2 : _ = 1 := Int.ofNat.inj h1
    subst h2
    rfl
  have hB : synthBuild E (.prefetch (.episodic (.base ba) cfg.batchSize cfg.episodeLength key) cfg.batchSize n) sa = .ok ({ a with isEpisodic := false }, m) := by
    rw [synthBuild_buffered, q2]
    simp only [Except.map, hm']
  simp only [buffered]
  rw [← q3, ← q4] at hin
  simp only [bufferedEpisodes_on q1 hB hin modern]
  rw [q3]
  obtain ⟨s1, s2, s3⟩ := hS.source (fun b => (⟨b.flow.rows.map Synthetic.fieldOf, some b.mask, b.files⟩ : Sampler.FlowBatch (Adapter.Field2 ℚ))) hfuel hno hat
  constructor
  · obtain ⟨calls, outs, st, g1, g2, g3⟩ := (Stack.quietE_restful (pcfg := ⟨cfg.batchSize, n.toNat⟩) s3 (by simp; omega)).calls_return modern
      (Synthetic.gen E.fl E.fl32 E.rand a m) m.cfg hff.symm (Stack.quietE_init ⟨0, hat⟩) ops
    exact ⟨outs, calls, st, g1, g2, g3⟩
  · rintro rest rfl hrest outs ⟨calls, st, g1, g2, g3⟩
    obtain ⟨⟨A0, op0⟩, calls, rfl, rfl, rfl⟩ := List.map_eq_cons_iff.mp g1
    obtain ⟨sx, hx⟩ := Stack.C83_buffered_episodes_partial modern _ _ cfg (Synthetic.gen E.fl E.fl32 E.rand a m) m.cfg ⟨cfg.batchSize, n.toNat⟩ hff.symm hff.symm
      e hat.step f9.lpos f9.ne s1 s2 A0 calls g2 (fun q hq h => hrest (List.mem_map.2 ⟨q, hq, h⟩)) outs st g3
    have : outs = outs' := by
      have := hx.symm.trans r1
      rw [Option.some.injEq, Prod.mk.injEq] at this
      exact this.1
    subst this
    refine ⟨?_, r2⟩
    simp only [synthEpisodes, q1, q2, hin]
    rw [q3]
    show Option.map _ (Sampler.run _ _ _ _ _) = _
    rw [r1]
    rfl

/-- **C121**, images read from the files (partial): as `C121_synthetic_partial`, for the sampler of real images. Missing: `next_episode()`
before the first batch, full resets, unreadable files, timeouts. -/
theorem C121_real_partial (E : Env) (d d' : Make.Dict) (hs : SameBut d d') (n : Int) (hn : 0 < n) (hbuf : Make.Spec.NatOption d "buffer_size" n)
    (s' : Make.Smp) (h : Make.make (world E) (.dict d') = .ok s') (L : Nat) (hp : WithEpisodes d' true L)
    (hrnd : Make.Spec.ValueOr d' "randomize" (.bool false) (.bool false)) (hset : LeafDirs.SetIter E.os.iterSet) :
    ∃ s files dirs k hh ww, Make.make (world E) (.dict d) = .ok s ∧ FilesOf E .mat d' files ∧ LeafDirsOf E files dirs ∧
      Has d' "batch_size" (IsInt (k : Nat)) ∧ 0 < k ∧ IsSize d' hh ww ∧
      ∀ content, RealPipeline.Contents E.mat hh ww (dirs.flatMap E.matFiles) content → (∀ p ∈ dirs.flatMap E.matFiles, content p ≠ none) →
        Episodic.ChoiceOK (Key := KeyTerm) ⟨KeyTerm.split2, E.choice⟩ → ∃ draws, Draws E dirs L k draws ∧ ((∀ j, Episodes.NoRepeat L (draws j)) →
          ∀ fuel, L * k ≤ fuel → ∀ modern ops, (∃ outs, BufferedRealEpisodes E fuel modern ops s outs) ∧
            ∀ rest, ops = .next :: rest → .reset true ∉ rest → ∀ outs, BufferedRealEpisodes E fuel modern ops s outs →
              realEpisodes E fuel ops s' = some outs ∧
              Episodes.Plays L (fun j t _ x =>
                RealPipeline.ShowsPairs k hh ww (RealPipeline.pairsOf content (stepFiles (draws j) t)) x ∧
                x.done = Episodes.doneFlags L k t) 0 0 0 ops outs) := by
  obtain ⟨b, hb, hmake⟩ := C121_built E d d' hs n hn hbuf hp.noBuffer
  rw [h] at hmake
  obtain ⟨files, dirs, c, key, hh, ww, cfg, f1, f2, f3, f4, f8, f9, f10, ba, rfl, q1, q3, q4, q5⟩ :=
    real_episodes_parts (arg := .dict d') rfl h hp hrnd
  have hbb : b = (cfg.batchSize : Int) := by
    refine same_int (d := d') (k := "batch_size") ?_ f3
    obtain ⟨v, g1, g2⟩ := hb _ h
    exact ⟨v, by rw [← hs _ (by decide)]; exact g1, g2⟩
  subst hbb
  subst f10
  refine ⟨_, files, dirs, cfg.batchSize, hh, ww, hmake, f1, leafDirsOf hset f2, f3, f9.pos, f4, ?_⟩
  intro content hcont hne hch
  have hone : ∀ p ∈ dirs.flatMap E.matFiles, ∃ t, content p = some t := fun p hp => Option.ne_none_iff_exists'.mp (hne p hp)
  have hD : Draws E dirs cfg.episodeLength cfg.batchSize (Episodes.drawn (⟨KeyTerm.split2, E.choice⟩ : Episodic.Rng KeyTerm) cfg key) :=
    fun k => ⟨Episodes.drawn_length f9 hch key k, Episodes.drawn_episode f9 hch key k⟩
  refine ⟨Episodes.drawn ⟨KeyTerm.split2, E.choice⟩ cfg key, hD, ?_⟩
  intro hno fuel hfuel modern ops
  obtain ⟨e, hin, he⟩ := q5 fuel
  obtain ⟨hS, hat, outs', st', r1, r2⟩ := real_plays f8 f9 hcont hone hch key hD hfuel ops (fun k _ => hno k) he
  simp only [buffered]
  rw [← q3, ← q4] at hin
  simp only [bufferedRealEpisodes_on q1 hin modern]
  rw [q3]
  obtain ⟨s1, s2, s3⟩ := hS.source id hfuel hno hat
  rw [Stack.view_id] at s1 s2 s3
  constructor
  · obtain ⟨calls, outs, st, g1, g2, g3⟩ := (Stack.quietE_restful (pcfg := ⟨cfg.batchSize, n.toNat⟩) s3 (by simp; omega)).real_calls_return modern
      (Stack.quietE_init ⟨0, hat⟩) ops
    exact ⟨outs, calls, st, g1, g2, g3⟩
  · rintro rest rfl hrest outs ⟨calls, st, g1, g2, g3⟩
    obtain ⟨⟨A0, op0⟩, calls, rfl, rfl, rfl⟩ := List.map_eq_cons_iff.mp g1
    obtain ⟨sx, hx⟩ := Stack.C83_real_sampler_partial modern _ _ cfg cfg.batchSize ⟨cfg.batchSize, n.toNat⟩ rfl rfl
      e hat.step f9.lpos f9.ne s1 s2 A0 calls g2 (fun q hq h => hrest (List.mem_map.2 ⟨q, hq, h⟩)) outs st g3
    have : outs = outs' := by
      have := hx.symm.trans r1
      rw [Option.some.injEq, Prod.mk.injEq] at this
      exact this.1
    subst this
    refine ⟨?_, r2⟩
    simp only [realEpisodes, q1, hin]
    rw [q3]
    show Option.map _ (Sampler.realHistory _ _ _ _) = _
    rw [show ((cfg.batchSize : Int).toNat) = cfg.batchSize from rfl, r1]
    rfl

/-! ## Cases -/

/-- What the worker does before, during and after a call, and the call. -/
structure Script where
  before : List Prefetch.Action
  during : List Prefetch.Action
  after : List Prefetch.Action
  leaving : List Prefetch.Action
  op : Sampler.Op

/-- The calls on a sampler with episodes and a buffer under the given interleaving. -/
def playScript (E : Env) (fuel : Nat) (modern : Bool) (scripts : List Script) :
    Make.Smp → Option (List (Sampler.Out (Sampler.OutBatch (Adapter.Field2 ℚ) Synthetic.Pair)))
  | .synthetic (.prefetch (.episodic (.base a) b l k) b' n) sa =>
    match buildBase E a, synthBuild E (.prefetch (.episodic (.base a) b l k) b' n) sa with
    | .ok (fl, c), .ok (s, m) =>
      match Episodic.init (Synthetic.fieldSched (matWorld E a) c fuel) ⟨KeyTerm.split2, E.choice⟩ E.os E.matFiles (some b) (some l)
        (Base.init (matWorld E a) c fl a.usedKey) k with
      | .ok (ecfg, e) =>
        (Stack.runVia (Synthetic.gen E.fl E.fl32 E.rand s m) m.cfg (scripts.map (fun q =>
          (Stack.scripted modern (Stack.episodicSrc (Synthetic.fieldSched (matWorld E a) c fuel) ⟨KeyTerm.split2, E.choice⟩ ecfg) ⟨b'.toNat, n.toNat⟩
            q.before q.during q.after q.leaving, q.op))) (Sampler.init m.cfg (Prefetch.init e))).map Prod.fst
      | .error _ => none
    | _, _ => none
  | _ => none

/-- The worker does the worker's steps only, and never times out. -/
def Script.fair (q : Script) : Bool :=
  (q.before ++ q.during ++ q.after).all (fun a => a.isWorker && decide (a ≠ .eosTimeout)) &&
    q.leaving.all (fun a => a.isWorker && decide (a ≠ .eosTimeout) || decide (a = .discard))

theorem playScript_can {E : Env} {fuel : Nat} {modern : Bool} {scripts : List Script} (hf : scripts.all Script.fair = true) {s : Make.Smp}
    {outs : List (Sampler.Out (Sampler.OutBatch (Adapter.Field2 ℚ) Synthetic.Pair))} (h : playScript E fuel modern scripts s = some outs) :
    BufferedEpisodes E fuel modern (scripts.map Script.op) s outs := by
  unfold playScript at h
  split at h
  · rename_i a b l k b' n sa
    split at h
    · rename_i fl c s m h1 h2
      split at h
      · rename_i ecfg e h3
        rw [Option.map_eq_some_iff] at h
        obtain ⟨⟨os, st⟩, h, rfl⟩ := h
        refine ⟨a, b, l, k, b', n, sa, fl, c, s, m, ecfg, e, rfl, h1, h2, h3, _, st, ?_, ?_, h⟩
        · rw [List.map_map]
          rfl
        · intro q hq
          obtain ⟨x, hx, rfl⟩ := List.mem_map.mp hq
          have := List.all_eq_true.mp hf x hx
          simp only [Script.fair, Bool.and_eq_true] at this
          exact Stack.demo_meets _ _ _ _ _ _ _ this.1 this.2
      · cases h
    · cases h
  · cases h

/-- One round of the worker. -/
def oneRound : List Prefetch.Action := [.check, .fetch, .put]

/-- Two batches from each batch of flow fields, and a step into the next episode. -/
def demoPlay : List Script :=
  [⟨[], oneRound, [], [], .next⟩, ⟨[], [], [], [], .next⟩, ⟨[], oneRound, [], [], .next⟩, ⟨[], [], [], [], .next⟩, ⟨[], [], [], [], .nextEpisode⟩,
   ⟨[], [], [], [], .next⟩]

/-- C121 is false if `batches_per_flow_batch` is not 1: without the buffer the sampler replaces it by 1, with the buffer it does not, because
its scheduler is then the prefetching one. Every frame is shown twice, except the last, at the end of which the sampler raises `EpisodeEnd`
after one batch; and the first batch after `next_episode()` is made from the last frame of the episode that was left. -/
theorem C121_refuted : ∃ s s' outs outs', Make.make (world demoEpisodes) (.dict (("buffer_size", .int 2) :: demoSynthEpisodes)) = .ok s ∧
    Make.make (world demoEpisodes) (.dict demoSynthEpisodes) = .ok s' ∧
    BufferedEpisodes demoEpisodes 4 true [.next, .next, .next, .next, .nextEpisode, .next] s outs ∧
    synthEpisodes demoEpisodes 4 [.next, .next, .next, .next, .nextEpisode, .next] s' = some outs' ∧
    outs.map (demoShown Sampler.OutBatch.files Sampler.OutBatch.done) =
      [some (["b/1.mat", "a/1.mat"], [false, false]), some (["b/1.mat", "a/1.mat"], [false, false]), some (["b/2.mat", "a/2.mat"], [true, true]), none,
       none, some (["b/2.mat", "a/2.mat"], [false, false])] ∧
    outs'.map (demoShown Sampler.OutBatch.files Sampler.OutBatch.done) =
      [some (["b/1.mat", "a/1.mat"], [false, false]), some (["b/2.mat", "a/2.mat"], [true, true]), none, none,
       none, some (["b/1.mat", "a/1.mat"], [false, false])] := by
  have h1 : (match Make.make (world demoEpisodes) (.dict (("buffer_size", .int 2) :: demoSynthEpisodes)) with
    | .ok s => (playScript demoEpisodes 4 true demoPlay s).map (List.map (demoShown Sampler.OutBatch.files Sampler.OutBatch.done))
    | .error _ => none) = some [some (["b/1.mat", "a/1.mat"], [false, false]), some (["b/1.mat", "a/1.mat"], [false, false]),
      some (["b/2.mat", "a/2.mat"], [true, true]), none, none, some (["b/2.mat", "a/2.mat"], [false, false])] := by decide +kernel
  have h2 : (match Make.make (world demoEpisodes) (.dict demoSynthEpisodes) with
    | .ok s => (synthEpisodes demoEpisodes 4 [.next, .next, .next, .next, .nextEpisode, .next] s).map
        (List.map (demoShown Sampler.OutBatch.files Sampler.OutBatch.done))
    | .error _ => none) = some [some (["b/1.mat", "a/1.mat"], [false, false]), some (["b/2.mat", "a/2.mat"], [true, true]), none, none,
       none, some (["b/1.mat", "a/1.mat"], [false, false])] := by decide +kernel
  cases hs : Make.make (world demoEpisodes) (.dict (("buffer_size", .int 2) :: demoSynthEpisodes)) with
  | error x =>
    rw [hs] at h1
    cases h1
  | ok s =>
    cases hs' : Make.make (world demoEpisodes) (.dict demoSynthEpisodes) with
    | error x =>
      rw [hs'] at h2
      cases h2
    | ok s' =>
      rw [hs] at h1
      rw [hs'] at h2
      dsimp only at h1 h2
      rw [Option.map_eq_some_iff] at h1 h2
      obtain ⟨outs, g1, g2⟩ := h1
      obtain ⟨outs', g3, g4⟩ := h2
      exact ⟨s, s', outs, outs', rfl, rfl, playScript_can (by decide) g1, g3, g2, g4⟩

/-- `demoSynthEpisodes` with one batch from each batch of flow fields. -/
def demoOnce : Make.Dict := demoSynthEpisodes.map (fun q => if q.1 = "batches_per_flow_batch" then (q.1, .int 1) else q)

/-- The hypotheses on the configurations are met, and the calls show the same. -/
example : WithEpisodes demoOnce false 2 ∧ SameBut (("buffer_size", .int 2) :: demoOnce) demoOnce ∧
    Make.Spec.NatOption (("buffer_size", .int 2) :: demoOnce) "buffer_size" 2 ∧
    Make.Spec.ValueOr demoOnce "randomize" (.bool false) (.bool false) ∧
    (match Make.make (world demoEpisodes) (.dict (("buffer_size", .int 2) :: demoOnce)) with
      | .ok s => (playScript demoEpisodes 4 true
          [⟨[], oneRound, [], [], .next⟩, ⟨oneRound, [], [], [], .next⟩, ⟨[], [], [], [], .next⟩, ⟨[], [], [], [], .nextEpisode⟩,
            ⟨[], [.check, .fetch] ++ oneRound, [], [], .next⟩] s).map (List.map (demoShown Sampler.OutBatch.files Sampler.OutBatch.done))
      | .error _ => none) =
    (match Make.make (world demoEpisodes) (.dict demoOnce) with
      | .ok s => (synthEpisodes demoEpisodes 4 [.next, .next, .next, .nextEpisode, .next] s).map
          (List.map (demoShown Sampler.OutBatch.files Sampler.OutBatch.done))
      | .error _ => none) ∧
    ((match Make.make (world demoEpisodes) (.dict demoOnce) with
      | .ok s => (synthEpisodes demoEpisodes 4 [.next, .next, .next, .nextEpisode, .next] s).map
          (List.map (demoShown Sampler.OutBatch.files Sampler.OutBatch.done))
      | .error _ => none) =
        some [some (["b/1.mat", "a/1.mat"], [false, false]), some (["b/2.mat", "a/2.mat"], [true, true]), none, none,
          some (["b/1.mat", "a/1.mat"], [false, false])]) := by
  refine ⟨⟨rfl, .inl ⟨rfl, rfl⟩, ⟨by decide, .inr ⟨_, rfl, rfl⟩⟩, by decide, ⟨by decide, .inl ⟨rfl, rfl⟩⟩⟩, sameBut_cons _ _,
    ⟨by decide, .inr ⟨_, rfl, rfl⟩⟩, .inl ⟨rfl, rfl⟩, by decide +kernel, by decide +kernel⟩

end Verif.Whole
