import Verif.Proofs.Episodes
import Verif.Model.WholeEpisodes
import Verif.Props.SynthMat
import Verif.Props.LeafDirs
/-!
# Property C120: from a configuration with episodes to the batches
-/

namespace Verif.Whole
open Verif Verif.Whole.Spec

/-! ## Specification -/

/-- The configuration asks for MAT files, with images or not, in episodes of `L` steps, and for no buffer. -/
structure WithEpisodes (d : Make.Dict) (images : Bool) (L : Nat) : Prop where
  schedulerClass : d.lookup "scheduler_class" = some (.str ".mat")
  includeImages : Make.Spec.ValueOr d "include_images" (.bool false) (.bool images)
  length : Make.Spec.NatOption d "episode_length" L
  pos : 0 < L
  noBuffer : Make.Spec.NatOption d "buffer_size" 0

/-- `dirs` are the directories of the files, each once, that have no subdirectory (symbolic links not counted). -/
def LeafDirsOf (E : Env) (files dirs : List String) : Prop :=
  dirs.Nodup ∧ ∀ dir, dir ∈ dirs ↔ (∃ p ∈ files, E.os.parent p = dir) ∧ ∃ es, E.os.scan dir = .entries es ∧ LeafDirs.Entry.dir ∉ es

/-- The draws: each of `n` episodes, that is, of `L` consecutive files of the sorted listing of one of the directories. -/
def Draws (E : Env) (dirs : List String) (L n : Nat) (draws : Nat → List (List String)) : Prop :=
  ∀ k, (draws k).length = n ∧ ∀ ep ∈ draws k, Episodic.IsEpisode E.matFiles dirs L ep

/-- The file of step `t` of each episode. -/
def stepFiles (eps : List (List String)) (t : Nat) : List String := eps.map (fun ep => ep.getD t "")

/-- A sampler with episodes makes one batch of images from each batch of flow fields, whatever `batches_per_flow_batch` says; the other
numbers are as in `Sizes`. -/
def EpisodeSizes (a : Synthetic.Args) (c : Sampler.Cfg) : Prop := Sizes { a with bpfb := 1 } c

/-! ## Lemmas -/

theorem leafDirsOf {E : Env} (hset : LeafDirs.SetIter E.os.iterSet) {files dirs : List String} (h : LeafDirs.discover E.os false files = .ok dirs) :
    LeafDirsOf E files dirs := by
  obtain ⟨h1, h2⟩ := LeafDirs.C60_leaf_dirs_exactly_once E.os hset false files dirs h
  refine ⟨h1, fun dir => (h2 dir).trans (and_congr_right fun _ => exists_congr fun es => and_congr_right fun _ => ?_)⟩
  constructor
  · exact fun h hm => (h _ hm).1 rfl
  · exact fun h e he => ⟨fun h0 => h (h0 ▸ he), fun h0 => by cases h0⟩

/-- The constructor of the episodic scheduler succeeds over every presentation of the base scheduler. -/
theorem episodes_init {E : Env} {a : Make.BaseArgs} {fl : List String} {c : Base.Cfg} {b l : Int} {k : KeyTerm} (hk : a.kind = .mat)
    (hb : buildBase E a = .ok (fl, c)) (hr : c.randomize = false) (h : episodicInit E (.base a) b l k = .ok ()) :
    ∃ dirs cfg, LeafDirs.discover E.os false fl = .ok dirs ∧ Episodic.CfgOK E.matFiles dirs cfg ∧ b = cfg.batchSize ∧ l = cfg.episodeLength ∧
      ∀ {B : Type} (sch : Sched (Base.St (Base.Sample ℚ) KeyTerm) B), (∀ s, sch.fileList s = s.fileList) → ∃ e,
        Episodic.init sch ⟨KeyTerm.split2, E.choice⟩ E.os E.matFiles (some b) (some l) (Base.init (matWorld E a) c fl a.usedKey) k = .ok (cfg, e) ∧
        Episodic.sample sch ⟨KeyTerm.split2, E.choice⟩ cfg ⟨Base.init (matWorld E a) c fl a.usedKey, 0, k⟩ = .ok e := by
  have hfl : (Base.init (matWorld E a) c fl a.usedKey).fileList = fl := by simp [Base.init, Base.shuffle, hr]
  have hinit : ∃ q, Episodic.init (Base.sched 0 (matWorld E a) c 0) ⟨KeyTerm.split2, E.choice⟩ E.os E.matFiles (some b) (some l)
          (Base.init (matWorld E a) c fl a.usedKey) k = .ok q := by
    unfold episodicInit at h
    simp only [hk, hb] at h
    split at h
    · cases h
    · rename_i q hq
      exact ⟨q, hq⟩
  obtain ⟨⟨cfg, e0⟩, hq⟩ := hinit
  obtain ⟨dirs, hd, ok, hbs, hel, hs⟩ := Episodic.init_ok hq
  have hd' : LeafDirs.discover E.os false fl = .ok dirs := by rw [← hfl]; exact hd
  refine ⟨dirs, cfg, hd', ok, by injection hbs, by injection hel, ?_⟩
  intro B sch hsch
  have hd2 : LeafDirs.discover E.os false (sch.fileList (Base.init (matWorld E a) c fl a.usedKey)) = .ok dirs := by rw [hsch, hfl]; exact hd'
  have := ((Episodic.C20_construction_iff (Base.sched 0 (matWorld E a) c 0) ⟨KeyTerm.split2, E.choice⟩ E.os E.matFiles (some b) (some l)
    (Base.init (matWorld E a) c fl a.usedKey) k dirs hd).1).mp ⟨_, hq⟩
  obtain ⟨⟨cfg', e⟩, he⟩ := ((Episodic.C20_construction_iff sch ⟨KeyTerm.split2, E.choice⟩ E.os E.matFiles (some b) (some l)
    (Base.init (matWorld E a) c fl a.usedKey) k dirs hd2).1).mpr this
  obtain ⟨dirs', hd3, ok', hbs', hel', hs'⟩ := Episodic.init_ok he
  rw [hd2] at hd3
  cases hd3
  have hcfg : cfg' = cfg := by
    have e1 : cfg'.batchSize = cfg.batchSize := by have := hbs'.symm.trans hbs; simpa using this
    have e2 : cfg'.episodeLength = cfg.episodeLength := by have := hel'.symm.trans hel; simpa using this
    have e3 : cfg'.dir2files = cfg.dir2files := by rw [ok'.d2f, ok.d2f]
    have e4 : cfg'.starts = cfg.starts := by rw [ok'.starts, ok.starts, e2, e3]
    cases cfg'
    cases cfg
    simp only at e1 e2 e3 e4
    rw [e1, e2, e3, e4]
  subst hcfg
  exact ⟨e, he, hs'⟩

/-- What `make` builds: the base scheduler and the episodes. -/
theorem episodes_made {E : Env} {arg : Make.Arg} {d : Make.Dict} {s : Make.Smp} (hd : Make.Spec.ConfigOf (world E) arg d)
    (h : Make.make (world E) arg = .ok s) {images : Bool} {L : Nat} (hp : WithEpisodes d images L) :
    ∃ b, ∃ root : KeyTerm, ∃ shape q, 0 < b ∧ Has d "batch_size" (IsInt b) ∧
      (if images then Make.andThen (Make.toTuple (Make.getD d "image_shape" (.tuple [.int 256, .int 256]))) fun t => .ok (some t)
            else .ok none) = Except.ok (ε := Exc) shape ∧
      buildBase E (Make.baseFromConfig .mat
        { fileList := Make.getD d "file_list" (.list []), randomize := Make.getD d "randomize" (.bool false),
          loop := Make.getD d "loop" (.bool true), key := root.split2.2, includeImages := images, outputShape := shape }) = .ok q ∧
      episodicInit E (.base (Make.baseFromConfig .mat
        { fileList := Make.getD d "file_list" (.list []), randomize := Make.getD d "randomize" (.bool false),
          loop := Make.getD d "loop" (.bool true), key := root.split2.2, includeImages := images, outputShape := shape })) b L
        root.split2.1.split2.2 = .ok () ∧
      Make.finish (world E) d images b L (.episodic (.base (Make.baseFromConfig .mat
        { fileList := Make.getD d "file_list" (.list []), randomize := Make.getD d "randomize" (.bool false),
          loop := Make.getD d "loop" (.bool true), key := root.split2.2, includeImages := images, outputShape := shape })) b L
        root.split2.1.split2.2) = .ok s := by
  obtain ⟨b, root, shape, q, p, h1, h2, _, h4, h5, h6, h7⟩ := make_steps_any (kind := .mat) hd h hp.schedulerClass hp.includeImages hp.length hp.noBuffer
  unfold Make.withEpisodes at h6
  rw [if_pos (by have := hp.pos; omega), Make.andThen_ok] at h6
  obtain ⟨u, hu, h6⟩ := h6
  cases h6
  exact ⟨b, root, shape, q, h1, h2, h4, h5, hu, h7⟩

theorem mem_stepFiles {E : Env} {dirs : List String} {L n : Nat} {draws : Nat → List (List String)} (hD : Draws E dirs L n draws) {k t : Nat}
    (ht : t < L) : ∀ p ∈ stepFiles (draws k) t, p ∈ dirs.flatMap E.matFiles := by
  intro p hp
  obtain ⟨ep, hep, rfl⟩ := List.mem_map.mp hp
  obtain ⟨hl, dir, hdir, listing, hperm, _, hinf⟩ := (hD k).2 ep hep
  refine List.mem_flatMap.mpr ⟨dir, hdir, hperm.mem_iff.mp (hinf.subset ?_)⟩
  rw [List.getD_eq_getElem?_getD, List.getElem?_eq_getElem (by omega), Option.getD_some]
  exact List.getElem_mem _

theorem fieldsOf_single {content : String → List (Arr ℚ)} : ∀ {l : List String}, (∀ p ∈ l, ∃ a, content p = [a]) →
    SynthAny.fieldsOf content l = l.map (fun p => (p, (content p).headD ⟨[], []⟩))
  | [], _ => rfl
  | p :: l, h => by
    obtain ⟨a, ha⟩ := h p (by simp)
    have ih := fieldsOf_single (fun q hq => h q (List.mem_cons_of_mem _ hq))
    unfold SynthAny.fieldsOf at ih ⊢
    rw [List.flatMap_cons, ih, ha]
    simp [ha]

theorem pairsOf_all {content : String → Option RealPipeline.Pair} : ∀ {l : List String}, (∀ p ∈ l, ∃ t, content p = some t) →
    RealPipeline.pairsOf content l = l.map (fun p => (p, (content p).getD ⟨⟨[], []⟩, ⟨[], []⟩, ⟨[], []⟩⟩))
  | [], _ => rfl
  | p :: l, h => by
    obtain ⟨a, ha⟩ := h p (by simp)
    have ih := pairsOf_all (fun q hq => h q (List.mem_cons_of_mem _ hq))
    unfold RealPipeline.pairsOf at ih ⊢
    rw [List.filterMap_cons, ih, ha]
    simp [ha]

theorem episodeSizes_of_make {fl fl32 : ℚ → ℚ} {a : Synthetic.Args} {m : Synthetic.Made} (h : Synthetic.make fl fl32 a = .ok m)
    (he : a.isEpisodic = true) : EpisodeSizes a m.cfg := by
  obtain ⟨_, _, _, h4, _⟩ := Synthetic.make_ok h
  obtain ⟨c1, c2, c3, c4⟩ := Sampler.C38_least_multiple _ _ _ _ _ _ _ h4
  obtain ⟨g1, g2, g3, g4, g5, g6, g7⟩ := Sampler.Cfg.make_ok h4
  rw [he] at g7
  refine ⟨by rw [g7], c2, by show a.spec.batchSize ≤ _; omega, fun n h1 h2 => c4 n h1 (by have : a.spec.batchSize ≤ n := h2; omega), ?_, ?_, ?_⟩
  · rw [g7]
    by_cases h1 : a.bpfb = 1 <;> simp [h1]
  · rw [g7]
    show ((a.ffpb.toNat : Nat) : Int) = a.ffpb
    omega
  · rw [g7]
    show ((a.seed.toNat : Nat) : Int) = a.seed
    omega

/-! ## C120 -/

/-- What `make` builds for synthetic images, in parts. -/
theorem synth_episodes_parts {E : Env} {arg : Make.Arg} {d : Make.Dict} {s : Make.Smp} (hd : Make.Spec.ConfigOf (world E) arg d)
    (h : Make.make (world E) arg = .ok s) {L : Nat} (hp : WithEpisodes d false L)
    (hrnd : Make.Spec.ValueOr d "randomize" (.bool false) (.bool false)) :
    ∃ files dirs c key, ∃ cfg : Episodic.Cfg, ∃ a m, FilesOf E .mat d files ∧ LeafDirs.discover E.os false files = .ok dirs ∧
      Has d "batch_size" (IsInt cfg.batchSize) ∧ Configured E d a ∧ Synthetic.make E.fl E.fl32 a = .ok m ∧ a.isEpisodic = true ∧
      a.flowShape = (256, 256) ∧ c.randomize = false ∧ Episodic.CfgOK E.matFiles dirs cfg ∧ cfg.episodeLength = L ∧
      ∃ ba sa, s = .synthetic (.episodic (.base ba) cfg.batchSize L key) sa ∧ buildBase E ba = .ok (files, c) ∧
        synthBuild E (.episodic (.base ba) cfg.batchSize L key) sa = .ok (a, m) ∧
        matWorld E ba = Formats.matWorld E.mat ⟨false, 256, 256⟩ KeyTerm.split2 E.perm ∧ ba.usedKey = .seed 0 ∧
        ∀ fuel, ∃ e,
          Episodic.init (Synthetic.fieldSched (Formats.matWorld E.mat ⟨false, 256, 256⟩ KeyTerm.split2 E.perm) c fuel) ⟨KeyTerm.split2, E.choice⟩ E.os E.matFiles
            (some (cfg.batchSize : Int)) (some (L : Int))
            (Base.init (Formats.matWorld E.mat ⟨false, 256, 256⟩ KeyTerm.split2 E.perm) c files (.seed 0)) key = .ok (cfg, e) ∧
          Episodic.sample (Synthetic.fieldSched (Formats.matWorld E.mat ⟨false, 256, 256⟩ KeyTerm.split2 E.perm) c fuel) ⟨KeyTerm.split2, E.choice⟩ cfg
            ⟨Base.init (Formats.matWorld E.mat ⟨false, 256, 256⟩ KeyTerm.split2 E.perm) c files (.seed 0), 0, key⟩ = .ok e := by
  obtain ⟨b, root, shape, ⟨files, c⟩, hb0, hbs, hsh, hb, hinit, hfin⟩ := episodes_made hd h hp
  have hsh' : shape = none := by
    simp only [Bool.false_eq_true, if_false, Except.ok.injEq] at hsh
    exact hsh.symm
  subst hsh'
  obtain ⟨f1, _, _, f2, f3⟩ := base_files hb
  have hr : c.randomize = false := by have := valueOr_unique f2 hrnd; injection this
  obtain ⟨dirs, cfg, hdir, ok, rfl, hl, hall⟩ := episodes_init rfl hb hr hinit
  unfold Make.finish at hfin
  rw [if_neg (by decide)] at hfin
  split at hfin
  · cases hfin
  simp only [Make.andThen_ok] at hfin
  obtain ⟨_, _, hfin⟩ := hfin
  obtain ⟨sa, a, m, hs, h1, h2, h3, h4, h5⟩ := synth_configured hfin
  refine ⟨files, dirs, c, root.split2.1.split2.2, cfg, a, m, f1, hdir, hbs, h3, h2, h5, ?_, hr, ok, by omega, _, sa, hs, hb, h1, rfl, rfl, ?_⟩
  · unfold threeOf at h4
    split at h4
    · rename_i x y z he
      simp only [Option.some.injEq, Prod.mk.injEq] at h4
      obtain ⟨h4, h6⟩ := h4
      rw [← h4]
      simp only [pipeShape, flowShape] at he
      rw [hb] at he
      simp only [Make.baseFromConfig, if_true, Except.ok.injEq, Formats.matShape, matCfg, List.cons.injEq] at he
      rw [← he.1, ← he.2.1]
      rfl
    · cases h4
  · intro fuel
    exact hall (Synthetic.fieldSched (Formats.matWorld E.mat ⟨false, 256, 256⟩ KeyTerm.split2 E.perm) c fuel) (fun _ => rfl)

/-- What `make` builds for synthetic images. -/
theorem synth_episodes_built {E : Env} {arg : Make.Arg} {d : Make.Dict} {s : Make.Smp} (hd : Make.Spec.ConfigOf (world E) arg d)
    (h : Make.make (world E) arg = .ok s) {L : Nat} (hp : WithEpisodes d false L)
    (hrnd : Make.Spec.ValueOr d "randomize" (.bool false) (.bool false)) :
    ∃ files dirs c key, ∃ cfg : Episodic.Cfg, ∃ a m, FilesOf E .mat d files ∧ LeafDirs.discover E.os false files = .ok dirs ∧
      Has d "batch_size" (IsInt cfg.batchSize) ∧ Configured E d a ∧ Synthetic.make E.fl E.fl32 a = .ok m ∧ a.isEpisodic = true ∧
      a.flowShape = (256, 256) ∧ c.randomize = false ∧ Episodic.CfgOK E.matFiles dirs cfg ∧ cfg.episodeLength = L ∧
      ∀ fuel, ∃ e,
        Episodic.sample (Synthetic.fieldSched (Formats.matWorld E.mat ⟨false, 256, 256⟩ KeyTerm.split2 E.perm) c fuel) ⟨KeyTerm.split2, E.choice⟩ cfg
          ⟨Base.init (Formats.matWorld E.mat ⟨false, 256, 256⟩ KeyTerm.split2 E.perm) c files (.seed 0), 0, key⟩ = .ok e ∧
        ∀ ops, synthEpisodes E fuel ops s = (Sampler.run (Sampler.ofEpisodic
          (Synthetic.fieldSched (Formats.matWorld E.mat ⟨false, 256, 256⟩ KeyTerm.split2 E.perm) c fuel) ⟨KeyTerm.split2, E.choice⟩ cfg)
          (Synthetic.gen E.fl E.fl32 E.rand a m) m.cfg ops (Sampler.init m.cfg e)).map Prod.fst := by
  obtain ⟨files, dirs, c, key, cfg, a, m, f1, f2, f3, f4, f5, f6, f7, f8, f9, f10, ba, sa, hs, hb, h1, hw, hk, hall⟩ := synth_episodes_parts hd h hp hrnd
  refine ⟨files, dirs, c, key, cfg, a, m, f1, f2, f3, f4, f5, f6, f7, f8, f9, f10, ?_⟩
  intro fuel
  obtain ⟨e, e1, e2⟩ := hall fuel
  refine ⟨e, e2, fun ops => ?_⟩
  rw [hs]
  unfold synthEpisodes
  simp only [hb, h1, hw, hk, e1]

/-- The one flow field of a file, as the scheduler sees it. -/
def frameOf (content : String → List (Arr ℚ)) (p : String) : Base.Sample ℚ := SynthAny.toSample (p, (content p).headD ⟨[], []⟩)

/-- The synthetic sampler over the episodic scheduler is a player. -/
theorem synth_plays {E : Env} {d : Make.Dict} {a : Synthetic.Args} {m : Synthetic.Made} {c : Base.Cfg} {cfg : Episodic.Cfg} {dirs files : List String}
    {content : String → List (Arr ℚ)} (f4 : Configured E d a) (f5 : Synthetic.make E.fl E.fl32 a = .ok m) (f6 : a.isEpisodic = true)
    (f8 : c.randomize = false) (f9 : Episodic.CfgOK E.matFiles dirs cfg)
    (hread : SynthAny.Reads (Formats.matWorld E.mat ⟨false, 256, 256⟩ KeyTerm.split2 E.perm) 256 256 2 (dirs.flatMap E.matFiles) content)
    (hone : ∀ p ∈ dirs.flatMap E.matFiles, ∃ v, content p = [v])
    (hch : Episodic.ChoiceOK (Key := KeyTerm) ⟨KeyTerm.split2, E.choice⟩) (hff : m.cfg.ffpb = cfg.batchSize) (hdv : a.ndevices ∣ cfg.batchSize)
    (key : KeyTerm) (hD : Draws E dirs cfg.episodeLength cfg.batchSize (Episodes.drawn (⟨KeyTerm.split2, E.choice⟩ : Episodic.Rng KeyTerm) cfg key))
    {fuel : Nat} (hfuel : cfg.episodeLength * cfg.batchSize ≤ fuel) (ops : List Sampler.Op)
    (hno : ∀ k, k ≤ Episodes.begun ops → Episodes.NoRepeat cfg.episodeLength (Episodes.drawn (⟨KeyTerm.split2, E.choice⟩ : Episodic.Rng KeyTerm) cfg key k))
    {e : Episodic.St (Base.St (Base.Sample ℚ) KeyTerm) KeyTerm}
    (he : Episodic.sample (Synthetic.fieldSched (Formats.matWorld E.mat ⟨false, 256, 256⟩ KeyTerm.split2 E.perm) c fuel) ⟨KeyTerm.split2, E.choice⟩ cfg
      ⟨Base.init (Formats.matWorld E.mat ⟨false, 256, 256⟩ KeyTerm.split2 E.perm) c files (.seed 0), 0, key⟩ = .ok e) :
    Episodes.Setting (Formats.matWorld E.mat ⟨false, 256, 256⟩ KeyTerm.split2 E.perm) (frameOf content) c E.matFiles dirs
      (⟨KeyTerm.split2, E.choice⟩ : Episodic.Rng KeyTerm) cfg [256, 256, 2] none none ∧
    Episodes.At (Formats.matWorld E.mat ⟨false, 256, 256⟩ KeyTerm.split2 E.perm) (frameOf content)
      (⟨KeyTerm.split2, E.choice⟩ : Episodic.Rng KeyTerm) cfg key 0 0 e ∧
    ∃ outs s', Sampler.run (Sampler.ofEpisodic
        (Synthetic.fieldSched (Formats.matWorld E.mat ⟨false, 256, 256⟩ KeyTerm.split2 E.perm) c fuel) ⟨KeyTerm.split2, E.choice⟩ cfg)
        (Synthetic.gen E.fl E.fl32 E.rand a m) m.cfg ops (Sampler.init m.cfg e) = some (outs, s') ∧
      Episodes.Plays cfg.episodeLength (fun k t i x =>
        SynthAny.MadeOf (Synthetic.gen E.fl E.fl32 E.rand a m) m.cfg 256 256 i
          (SynthAny.fieldsOf content (stepFiles (Episodes.drawn (⟨KeyTerm.split2, E.choice⟩ : Episodic.Rng KeyTerm) cfg key k) t)) x ∧
        x.done = Episodes.doneFlags cfg.episodeLength m.cfg.batchSize t ∧
        (E.fl = id → E.fl32 = id → Generate.Lawful E.rand → Synthetic.WellFormed a m.cfg.batchSize x)) 0 0 0 ops outs := by
  have hS : Episodes.Setting (Formats.matWorld E.mat ⟨false, 256, 256⟩ KeyTerm.split2 E.perm) (frameOf content) c E.matFiles dirs
      (⟨KeyTerm.split2, E.choice⟩ : Episodic.Rng KeyTerm) cfg [256, 256, 2] none none := by
    refine ⟨f8, f9, hch, ?_, ?_⟩
    · intro dir hdir p hp
      have hm := List.mem_flatMap.mpr ⟨dir, hdir, hp⟩
      obtain ⟨v, hv⟩ := hone p hm
      have := (hread p hm).1
      unfold SynthAny.samplesOf at this
      rw [hv] at this
      show Base.Yields _ p [SynthAny.toSample (p, (content p).headD _)]
      rw [hv]
      exact this
    · have := SynthAny.contents_uniform hread (fun q hq => hq)
      rw [fieldsOf_single hone, List.map_map] at this
      exact this
  rw [Episodes.sample_drawn f9 _ _ key 0 _ rfl] at he
  simp only [Except.ok.injEq] at he
  have hat : Episodes.At (Formats.matWorld E.mat ⟨false, 256, 256⟩ KeyTerm.split2 E.perm) (frameOf content)
      (⟨KeyTerm.split2, E.choice⟩ : Episodic.Rng KeyTerm) cfg key 0 0 e := by
    rw [← he]
    exact hS.fresh (hno 0 (Nat.zero_le _)) _
  obtain ⟨_, _, _, g4, _⟩ := Synthetic.make_ok f5
  have hsz := episodeSizes_of_make f5 f6
  have hok := Sampler.Cfg.ok_of_make g4
  obtain ⟨outs, s', r1, r2⟩ := hS.sampler_run key (Synthetic.gen E.fl E.fl32 E.rand a m) hok hff
    (by have : (m.cfg.bpfb : Int) = 1 := hsz.bpfb; omega)
    (by rw [show m.cfg.ndevices = a.ndevices from hsz.devices, hff]; exact Nat.mod_eq_zero_of_dvd hdv) hfuel
    ops 0 0 0 (Sampler.init m.cfg e) ⟨hat, rfl, .inl rfl⟩ (fun j hj => by rw [Nat.zero_add]; exact hno j hj)
  refine ⟨hS, hat, outs, s', r1, ?_⟩
  refine Episodes.Plays.mono (all := outs) ?_ ops 0 0 0 outs (fun _ h => h) r2
  rintro k t i x ht hx ⟨b, x1, x2, x3⟩
  have hmem : ∀ p ∈ stepFiles (Episodes.drawn (⟨KeyTerm.split2, E.choice⟩ : Episodic.Rng KeyTerm) cfg key k) t, p ∈ dirs.flatMap E.matFiles := mem_stepFiles hD ht
  have hlen : (stepFiles (Episodes.drawn (⟨KeyTerm.split2, E.choice⟩ : Episodic.Rng KeyTerm) cfg key k) t).length = cfg.batchSize := by
    unfold stepFiles
    rw [List.length_map, (hD k).1]
  have hfo := fieldsOf_single (fun p hp => hone p (hmem p hp))
  have hmade : SynthAny.MadeOf (Synthetic.gen E.fl E.fl32 E.rand a m) m.cfg 256 256 i
      (SynthAny.fieldsOf content (stepFiles (Episodes.drawn ⟨KeyTerm.split2, E.choice⟩ cfg key k) t)) x := by
    refine SynthAny.madeOf (by omega) hread _ _ ?_ ?_ ?_ ?_ x2
    · intro h0
      have := congrArg List.length h0
      rw [hfo, List.length_map, hlen] at this
      have := f9.pos
      simp_all
    · rw [hfo, List.length_map, hlen, hff]
    · intro q hq
      obtain ⟨p, hp, hq⟩ := List.mem_flatMap.mp hq
      exact List.mem_flatMap.mpr ⟨p, hmem p hp, hq⟩
    · rw [hfo, List.map_map, hff]
      have := x1
      unfold stepFiles
      rw [List.map_map]
      exact this
  refine ⟨hmade, x3, ?_⟩
  intro e1 e2 hR
  rw [e1, e2] at r1
  rw [e1] at f5
  obtain ⟨n', w1, _⟩ := Synthetic.C89_episodic_partial _ c fuel _ cfg E.fl32 E.rand hR a m f5 (maskValues f4)
    _ _ outs s' r1 x hx
  have : n' = m.cfg.batchSize := by rw [← w1.images, hmade.1]
  rwa [this] at w1

/-- **C120**, synthetic images (partial): from a configuration with episodes and without buffer that `make` accepts, every history of calls on
the sampler is one of the player of `Spec/Episodes.lean`. The episodes are `L` consecutive files of the sorted listing of one of the leaf
directories of the files of `file_list`; a draw is of `batch_size` of them. Batch `t` of an episode shows frame `t` of every episode drawn, and
its done flags are set at the last step only; then come `EpisodeEnd`s until `next_episode` or `reset`. In exact arithmetic the batches are
well-formed.

Partial: `flow_fields_per_batch` has to be `batch_size` (C43), `randomize` off (C22), every frame readable (C22), and no file may come directly
after itself in the queue (C22). -/
theorem C120_synthetic_partial (E : Env) (arg : Make.Arg) (d : Make.Dict) (hd : Make.Spec.ConfigOf (world E) arg d) (s : Make.Smp)
    (h : Make.make (world E) arg = .ok s) (L : Nat) (hp : WithEpisodes d false L)
    (hrnd : Make.Spec.ValueOr d "randomize" (.bool false) (.bool false)) (hset : LeafDirs.SetIter E.os.iterSet) (hpil : Formats.PilOK E.mat) :
    ∃ files dirs n a m, FilesOf E .mat d files ∧ LeafDirsOf E files dirs ∧ Has d "batch_size" (IsInt (n : Nat)) ∧ 0 < n ∧ Configured E d a ∧
      Synthetic.make E.fl E.fl32 a = .ok m ∧ EpisodeSizes a m.cfg ∧ a.flowShape = (256, 256) ∧
      (∀ dir ∈ dirs, L ≤ (E.matFiles dir).length) ∧
      (Ordinary E.mat (dirs.flatMap E.matFiles) → ∃ content, MatContents E.mat 256 256 (dirs.flatMap E.matFiles) content ∧
        ((∀ p ∈ dirs.flatMap E.matFiles, content p ≠ []) → Episodic.ChoiceOK (Key := KeyTerm) ⟨KeyTerm.split2, E.choice⟩ → m.cfg.ffpb = n →
          a.ndevices ∣ n → ∃ draws, Draws E dirs L n draws ∧ ∀ fuel, L * n ≤ fuel → ∀ ops,
            (∀ k, k ≤ Episodes.begun ops → Episodes.NoRepeat L (draws k)) → ∃ outs, synthEpisodes E fuel ops s = some outs ∧
            Episodes.Plays L (fun k t i x =>
              SynthAny.MadeOf (Synthetic.gen E.fl E.fl32 E.rand a m) m.cfg 256 256 i (SynthAny.fieldsOf content (stepFiles (draws k) t)) x ∧
              x.done = Episodes.doneFlags L m.cfg.batchSize t ∧
              (E.fl = id → E.fl32 = id → Generate.Lawful E.rand → Synthetic.WellFormed a m.cfg.batchSize x)) 0 0 0 ops outs)) := by
  obtain ⟨files, dirs, c, key, cfg, a, m, f1, f2, f3, f4, f5, f6, f7, f8, f9, f10, f11⟩ := synth_episodes_built hd h hp hrnd
  subst f10
  refine ⟨files, dirs, cfg.batchSize, a, m, f1, leafDirsOf hset f2, f3, f9.pos, f4, f5, episodeSizes_of_make f5 f6, f7, f9.enough, ?_⟩
  intro ho
  have hmc := mat_contents hpil (show 0 < 256 by omega) (show 0 < 256 by omega) ho
  have hread := mat_reads hpil (show 0 < 256 by omega) (show 0 < 256 by omega) ho KeyTerm.split2 E.perm
  generalize hcont : matContent E.mat ⟨false, 256, 256⟩ = content at hmc hread
  refine ⟨content, hmc, ?_⟩
  intro hne hch hff hdv
  have hone : ∀ p ∈ dirs.flatMap E.matFiles, ∃ v, content p = [v] := by
    intro p hp
    rcases hmc p hp with ⟨_, _, v, e, _⟩ | ⟨e, _⟩
    · exact ⟨v, e⟩
    · exact absurd e (hne p hp)
  have hD : Draws E dirs cfg.episodeLength cfg.batchSize (Episodes.drawn (⟨KeyTerm.split2, E.choice⟩ : Episodic.Rng KeyTerm) cfg key) :=
    fun k => ⟨Episodes.drawn_length f9 hch key k, Episodes.drawn_episode f9 hch key k⟩
  refine ⟨Episodes.drawn ⟨KeyTerm.split2, E.choice⟩ cfg key, hD, ?_⟩
  intro fuel hfuel ops hno
  obtain ⟨e, he, hrun⟩ := f11 fuel
  obtain ⟨_, _, outs, s', r1, r2⟩ := synth_plays f4 f5 f6 f8 f9 hread hone hch hff hdv key hD hfuel ops hno he
  exact ⟨outs, by rw [hrun, r1]; rfl, r2⟩

/-- What `make` builds for the images in the files, in parts. -/
theorem real_episodes_parts {E : Env} {arg : Make.Arg} {d : Make.Dict} {s : Make.Smp} (hd : Make.Spec.ConfigOf (world E) arg d)
    (h : Make.make (world E) arg = .ok s) {L : Nat} (hp : WithEpisodes d true L)
    (hrnd : Make.Spec.ValueOr d "randomize" (.bool false) (.bool false)) :
    ∃ files dirs c key hh ww, ∃ cfg : Episodic.Cfg, FilesOf E .mat d files ∧ LeafDirs.discover E.os false files = .ok dirs ∧
      Has d "batch_size" (IsInt cfg.batchSize) ∧ IsSize d hh ww ∧ c.randomize = false ∧ Episodic.CfgOK E.matFiles dirs cfg ∧ cfg.episodeLength = L ∧
      ∃ ba, s = .real (.episodic (.base ba) cfg.batchSize L key) cfg.batchSize ∧ buildBase E ba = .ok (files, c) ∧
        matWorld E ba = Formats.matWorld E.mat ⟨true, hh, ww⟩ KeyTerm.split2 E.perm ∧ ba.usedKey = .seed 0 ∧
        ∀ fuel, ∃ e,
          Episodic.init (Base.sched 0 (Formats.matWorld E.mat ⟨true, hh, ww⟩ KeyTerm.split2 E.perm) c fuel) ⟨KeyTerm.split2, E.choice⟩ E.os E.matFiles
            (some (cfg.batchSize : Int)) (some (L : Int))
            (Base.init (Formats.matWorld E.mat ⟨true, hh, ww⟩ KeyTerm.split2 E.perm) c files (.seed 0)) key = .ok (cfg, e) ∧
          Episodic.sample (Base.sched 0 (Formats.matWorld E.mat ⟨true, hh, ww⟩ KeyTerm.split2 E.perm) c fuel) ⟨KeyTerm.split2, E.choice⟩ cfg
            ⟨Base.init (Formats.matWorld E.mat ⟨true, hh, ww⟩ KeyTerm.split2 E.perm) c files (.seed 0), 0, key⟩ = .ok e := by
  obtain ⟨b, root, shape, ⟨files, c⟩, hb0, hbs, hsh, hb, hinit, hfin⟩ := episodes_made hd h hp
  rw [if_pos rfl] at hsh
  obtain ⟨hh, ww, f1, f2, f3, f4, f5⟩ := mat_base hsh hb
  have hr : c.randomize = false := by have := valueOr_unique f2 hrnd; injection this
  obtain ⟨dirs, cfg, hdir, ok, rfl, hl, hall⟩ := episodes_init rfl hb hr hinit
  unfold Make.finish at hfin
  rw [if_pos rfl, Make.andThen_ok] at hfin
  obtain ⟨_, _, hfin⟩ := hfin
  cases hfin
  refine ⟨files, dirs, c, root.split2.1.split2.2, hh, ww, cfg, f1, hdir, hbs, f4, hr, ok, by omega, _, rfl, hb, f5, rfl, ?_⟩
  intro fuel
  have := hall (Base.sched 0 (Formats.matWorld E.mat ⟨true, hh, ww⟩ KeyTerm.split2 E.perm) c fuel) (fun _ => rfl)
  rw [f5] at this
  exact this

/-- What `make` builds for the images in the files. -/
theorem real_episodes_built {E : Env} {arg : Make.Arg} {d : Make.Dict} {s : Make.Smp} (hd : Make.Spec.ConfigOf (world E) arg d)
    (h : Make.make (world E) arg = .ok s) {L : Nat} (hp : WithEpisodes d true L)
    (hrnd : Make.Spec.ValueOr d "randomize" (.bool false) (.bool false)) :
    ∃ files dirs c key hh ww, ∃ cfg : Episodic.Cfg, FilesOf E .mat d files ∧ LeafDirs.discover E.os false files = .ok dirs ∧
      Has d "batch_size" (IsInt cfg.batchSize) ∧ IsSize d hh ww ∧ c.randomize = false ∧ Episodic.CfgOK E.matFiles dirs cfg ∧ cfg.episodeLength = L ∧
      ∀ fuel, ∃ e,
        Episodic.sample (Base.sched 0 (Formats.matWorld E.mat ⟨true, hh, ww⟩ KeyTerm.split2 E.perm) c fuel) ⟨KeyTerm.split2, E.choice⟩ cfg
          ⟨Base.init (Formats.matWorld E.mat ⟨true, hh, ww⟩ KeyTerm.split2 E.perm) c files (.seed 0), 0, key⟩ = .ok e ∧
        ∀ ops, realEpisodes E fuel ops s = (Sampler.realHistory (Sampler.ofEpisodic
          (Base.sched 0 (Formats.matWorld E.mat ⟨true, hh, ww⟩ KeyTerm.split2 E.perm) c fuel) ⟨KeyTerm.split2, E.choice⟩ cfg)
          cfg.batchSize ops e).map Prod.fst := by
  obtain ⟨files, dirs, c, key, hh, ww, cfg, f1, f2, f3, f4, f8, f9, f10, ba, hs, hb, hw, hk, hall⟩ := real_episodes_parts hd h hp hrnd
  refine ⟨files, dirs, c, key, hh, ww, cfg, f1, f2, f3, f4, f8, f9, f10, ?_⟩
  intro fuel
  obtain ⟨e, e1, e2⟩ := hall fuel
  refine ⟨e, e2, fun ops => ?_⟩
  rw [hs]
  unfold realEpisodes
  simp only [hb, hw, hk, e1]
  rfl

/-- The image pair of a file, as the scheduler sees it. -/
def pairFrame (content : String → Option RealPipeline.Pair) (p : String) : Base.Sample ℚ :=
  RealPipeline.toSample (p, (content p).getD ⟨⟨[], []⟩, ⟨[], []⟩, ⟨[], []⟩⟩)

/-- The real-image sampler over the episodic scheduler is a player. -/
theorem real_plays {E : Env} {hh ww : Nat} {c : Base.Cfg} {cfg : Episodic.Cfg} {dirs files : List String}
    {content : String → Option RealPipeline.Pair} (f8 : c.randomize = false) (f9 : Episodic.CfgOK E.matFiles dirs cfg)
    (hcont : RealPipeline.Contents E.mat hh ww (dirs.flatMap E.matFiles) content)
    (hone : ∀ p ∈ dirs.flatMap E.matFiles, ∃ t, content p = some t)
    (hch : Episodic.ChoiceOK (Key := KeyTerm) ⟨KeyTerm.split2, E.choice⟩)
    (key : KeyTerm) (hD : Draws E dirs cfg.episodeLength cfg.batchSize (Episodes.drawn (⟨KeyTerm.split2, E.choice⟩ : Episodic.Rng KeyTerm) cfg key))
    {fuel : Nat} (hfuel : cfg.episodeLength * cfg.batchSize ≤ fuel) (ops : List Sampler.Op)
    (hno : ∀ k, k ≤ Episodes.begun ops → Episodes.NoRepeat cfg.episodeLength (Episodes.drawn (⟨KeyTerm.split2, E.choice⟩ : Episodic.Rng KeyTerm) cfg key k))
    {e : Episodic.St (Base.St (Base.Sample ℚ) KeyTerm) KeyTerm}
    (he : Episodic.sample (Base.sched 0 (Formats.matWorld E.mat ⟨true, hh, ww⟩ KeyTerm.split2 E.perm) c fuel) ⟨KeyTerm.split2, E.choice⟩ cfg
      ⟨Base.init (Formats.matWorld E.mat ⟨true, hh, ww⟩ KeyTerm.split2 E.perm) c files (.seed 0), 0, key⟩ = .ok e) :
    Episodes.Setting (Formats.matWorld E.mat ⟨true, hh, ww⟩ KeyTerm.split2 E.perm) (pairFrame content) c E.matFiles dirs
      (⟨KeyTerm.split2, E.choice⟩ : Episodic.Rng KeyTerm) cfg [hh, ww, 2] (some [hh, ww]) (some [hh, ww]) ∧
    Episodes.At (Formats.matWorld E.mat ⟨true, hh, ww⟩ KeyTerm.split2 E.perm) (pairFrame content)
      (⟨KeyTerm.split2, E.choice⟩ : Episodic.Rng KeyTerm) cfg key 0 0 e ∧
    ∃ outs e', Sampler.realHistory (Sampler.ofEpisodic
        (Base.sched 0 (Formats.matWorld E.mat ⟨true, hh, ww⟩ KeyTerm.split2 E.perm) c fuel) ⟨KeyTerm.split2, E.choice⟩ cfg)
        cfg.batchSize ops e = some (outs, e') ∧
      Episodes.Plays cfg.episodeLength (fun k t _ x =>
        RealPipeline.ShowsPairs cfg.batchSize hh ww
          (RealPipeline.pairsOf content (stepFiles (Episodes.drawn (⟨KeyTerm.split2, E.choice⟩ : Episodic.Rng KeyTerm) cfg key k) t)) x ∧
        x.done = Episodes.doneFlags cfg.episodeLength cfg.batchSize t) 0 0 0 ops outs := by
  have hS : Episodes.Setting (Formats.matWorld E.mat ⟨true, hh, ww⟩ KeyTerm.split2 E.perm) (pairFrame content) c E.matFiles dirs
      (⟨KeyTerm.split2, E.choice⟩ : Episodic.Rng KeyTerm) cfg [hh, ww, 2] (some [hh, ww]) (some [hh, ww]) := by
    refine ⟨f8, f9, hch, ?_, ?_⟩
    · intro dir hdir p hp
      have hm := List.mem_flatMap.mpr ⟨dir, hdir, hp⟩
      obtain ⟨v, hv⟩ := hone p hm
      have := RealPipeline.contents_yields hcont KeyTerm.split2 E.perm p hm
      unfold RealPipeline.samplesOf at this
      rw [hv] at this
      show Base.Yields _ p [RealPipeline.toSample (p, (content p).getD _)]
      rw [hv]
      exact this
    · have := RealPipeline.contents_uniform hcont
      rw [RealPipeline.flatMap_samplesOf, pairsOf_all hone, List.map_map] at this
      exact this
  rw [Episodes.sample_drawn f9 _ _ key 0 _ rfl] at he
  simp only [Except.ok.injEq] at he
  have hat : Episodes.At (Formats.matWorld E.mat ⟨true, hh, ww⟩ KeyTerm.split2 E.perm) (pairFrame content)
      (⟨KeyTerm.split2, E.choice⟩ : Episodic.Rng KeyTerm) cfg key 0 0 e := by
    rw [← he]
    exact hS.fresh (hno 0 (Nat.zero_le _)) _
  obtain ⟨outs, e', r1, r2⟩ := hS.real_run key hfuel ops 0 0 0 e hat (fun j hj => by rw [Nat.zero_add]; exact hno j hj)
  refine ⟨hS, hat, outs, e', r1, ?_⟩
  refine Episodes.Plays.mono (all := outs) ?_ ops 0 0 0 outs (fun _ h => h) r2
  rintro k t i x ht hx ⟨b, x1, rfl⟩
  have hmem : ∀ p ∈ stepFiles (Episodes.drawn (⟨KeyTerm.split2, E.choice⟩ : Episodic.Rng KeyTerm) cfg key k) t, p ∈ dirs.flatMap E.matFiles := mem_stepFiles hD ht
  have hlen : (stepFiles (Episodes.drawn (⟨KeyTerm.split2, E.choice⟩ : Episodic.Rng KeyTerm) cfg key k) t).length = cfg.batchSize := by
    unfold stepFiles
    rw [List.length_map, (hD k).1]
  have hfo := pairsOf_all (fun p hp => hone p (hmem p hp))
  have hshow : RealPipeline.ShowsPairs cfg.batchSize hh ww
      (RealPipeline.pairsOf content (stepFiles (Episodes.drawn ⟨KeyTerm.split2, E.choice⟩ cfg key k) t)) (RealPipeline.asReal b) := by
    refine RealPipeline.shows_real ?_ ?_ ?_ ?_
    · intro h0
      have := congrArg List.length h0
      rw [hfo, List.length_map, hlen] at this
      have := f9.pos
      simp_all
    · intro q hq
      rw [hfo] at hq
      obtain ⟨p, hp, rfl⟩ := List.mem_map.mp hq
      obtain ⟨v, hv⟩ := hone p (hmem p hp)
      have := hcont p (hmem p hp)
      rw [hv] at this
      rw [hv]
      exact ⟨this.2.1, this.2.2.1, this.2.2.2.1⟩
    · rw [hfo, List.map_map]
      have := x1
      unfold stepFiles
      rw [List.map_map]
      exact this
    · rw [hfo, List.length_map, hlen]
  exact ⟨⟨hshow.flow_shape, hshow.mask, hshow.flow, hshow.flow_pad, hshow.images, hshow.files, hshow.params⟩, rfl⟩

/-- **C120**, real images (partial): likewise; batch `t` of an episode consists of the images, flow fields and names of frame `t` of every
episode drawn.

Partial: `randomize` has to be off, every frame usable, of the size asked for, and no file may come directly after itself in the queue (C22). -/
theorem C120_real_partial (E : Env) (arg : Make.Arg) (d : Make.Dict) (hd : Make.Spec.ConfigOf (world E) arg d) (s : Make.Smp)
    (h : Make.make (world E) arg = .ok s) (L : Nat) (hp : WithEpisodes d true L)
    (hrnd : Make.Spec.ValueOr d "randomize" (.bool false) (.bool false)) (hset : LeafDirs.SetIter E.os.iterSet) :
    ∃ files dirs n hh ww, FilesOf E .mat d files ∧ LeafDirsOf E files dirs ∧ Has d "batch_size" (IsInt (n : Nat)) ∧ 0 < n ∧ IsSize d hh ww ∧
      (∀ dir ∈ dirs, L ≤ (E.matFiles dir).length) ∧
      ∀ content, RealPipeline.Contents E.mat hh ww (dirs.flatMap E.matFiles) content → (∀ p ∈ dirs.flatMap E.matFiles, content p ≠ none) →
        Episodic.ChoiceOK (Key := KeyTerm) ⟨KeyTerm.split2, E.choice⟩ → ∃ draws, Draws E dirs L n draws ∧ ∀ fuel, L * n ≤ fuel → ∀ ops,
          (∀ k, k ≤ Episodes.begun ops → Episodes.NoRepeat L (draws k)) → ∃ outs, realEpisodes E fuel ops s = some outs ∧
          Episodes.Plays L (fun k t _ x =>
            RealPipeline.ShowsPairs n hh ww (RealPipeline.pairsOf content (stepFiles (draws k) t)) x ∧
            x.done = Episodes.doneFlags L n t) 0 0 0 ops outs := by
  obtain ⟨files, dirs, c, key, hh, ww, cfg, f1, f2, f3, f4, f8, f9, f10, f11⟩ := real_episodes_built hd h hp hrnd
  subst f10
  refine ⟨files, dirs, cfg.batchSize, hh, ww, f1, leafDirsOf hset f2, f3, f9.pos, f4, f9.enough, ?_⟩
  intro content hcont hne hch
  have hone : ∀ p ∈ dirs.flatMap E.matFiles, ∃ t, content p = some t := fun p hp => Option.ne_none_iff_exists'.mp (hne p hp)
  have hD : Draws E dirs cfg.episodeLength cfg.batchSize (Episodes.drawn (⟨KeyTerm.split2, E.choice⟩ : Episodic.Rng KeyTerm) cfg key) :=
    fun k => ⟨Episodes.drawn_length f9 hch key k, Episodes.drawn_episode f9 hch key k⟩
  refine ⟨Episodes.drawn ⟨KeyTerm.split2, E.choice⟩ cfg key, hD, ?_⟩
  intro fuel hfuel ops hno
  obtain ⟨e, he, hrun⟩ := f11 fuel
  obtain ⟨_, _, outs, e', r1, r2⟩ := real_plays f8 f9 hcont hone hch key hD hfuel ops hno he
  exact ⟨outs, by rw [hrun, r1]; rfl, r2⟩

/-- What a sampler shows that asks for batches of another size than the episodes have. -/
def mismatchOut {A : Type} : Sampler.Op → Sampler.Out A
  | .next => .raised .valueError
  | .nextEpisode => .done
  | .reset _ => .done

theorem mismatch_run {S Key F O I : Type} {glob : String → List String} {dirs : List String} {cfg : Episodic.Cfg}
    (hok : Episodic.CfgOK glob dirs cfg) (sch : Sched S (Sampler.FlowBatch F)) (rng : Episodic.Rng Key) (g : Sampler.Gen F O I) (scfg : Sampler.Cfg)
    (hne : scfg.ffpb ≠ cfg.batchSize) : ∀ (ops : List Sampler.Op) (s : Sampler.St (Episodic.St S Key) F O), s.sched.t = 0 → s.cur = none →
    ∃ s', Sampler.run (Sampler.ofEpisodic sch rng cfg) g scfg ops s = some (ops.map mismatchOut, s') := by
  intro ops
  induction ops with
  | nil => intro s _ _; exact ⟨s, rfl⟩
  | cons op ops ih =>
    intro s ht hc
    have hst : cfg.starts.isEmpty = false := by simpa using hok.ne
    have hsam : ∃ e', Episodic.nextEpisode sch rng cfg s.sched = .ok e' ∧ e'.t = 0 := by
      unfold Episodic.nextEpisode Episodic.sample
      rw [hst]
      simp only [Bool.false_eq_true, if_false]
      exact ⟨_, rfl, rfl⟩
    obtain ⟨e', he, ht'⟩ := hsam
    cases op with
    | next =>
      obtain ⟨s', hs'⟩ := ih { s with generated := 0 } ht hc
      refine ⟨s', ?_⟩
      have hover : Sampler.episodeOver (Sampler.ofEpisodic sch rng cfg) s.sched = false := by
        show decide (Episodic.stepsRemaining cfg s.sched = 0) = false
        unfold Episodic.stepsRemaining
        rw [ht]
        have := hok.lpos
        simp only [decide_eq_false_iff_not]
        omega
      have hget : (Sampler.ofEpisodic sch rng cfg).getBatch scfg.ffpb s.sched = some (.error .valueError, s.sched) := by
        show Episodic.getBatch _ _ _ _ = _
        unfold Episodic.getBatch
        rw [if_pos hne]
      have hnext : Sampler.next (Sampler.ofEpisodic sch rng cfg) g scfg s = some (.error .valueError, { s with generated := 0 }) := by
        unfold Sampler.next
        rw [hover]
        unfold Sampler.getNext
        rw [hc]
        unfold Sampler.getNext.fetch
        rw [hget]
        simp [hc]
      rw [Sampler.run, Sampler.step, hnext]
      simp only [Option.map_some, hs']
      rfl
    | nextEpisode =>
      obtain ⟨s', hs'⟩ := ih { s with sched := e' } ht' hc
      refine ⟨s', ?_⟩
      have hn : Sampler.nextEpisode (Sampler.ofEpisodic sch rng cfg) s = (.ok (), { s with sched := e' }) := by
        unfold Sampler.nextEpisode
        rw [show (Sampler.ofEpisodic sch rng cfg).episodic = some (Episodic.stepsRemaining cfg, Episodic.nextEpisode sch rng cfg) from rfl]
        simp only [he]
      rw [Sampler.run, Sampler.step, hn]
      simp only [hs']
      rfl
    | reset b =>
      cases b with
      | false =>
        obtain ⟨s', hs'⟩ := ih (Sampler.resetSelf scfg s) ht rfl
        refine ⟨s', ?_⟩
        have hn : Sampler.reset (Sampler.ofEpisodic sch rng cfg) scfg false s = (.ok (), Sampler.resetSelf scfg s) := rfl
        rw [Sampler.run, Sampler.step, hn]
        simp only [hs']
        rfl
      | true =>
        obtain ⟨s', hs'⟩ := ih { Sampler.resetSelf scfg s with sched := e' } ht' rfl
        refine ⟨s', ?_⟩
        have hn : Sampler.reset (Sampler.ofEpisodic sch rng cfg) scfg true s = (.ok (), { Sampler.resetSelf scfg s with sched := e' }) := by
          unfold Sampler.reset
          have q1 : (Sampler.ofEpisodic sch rng cfg).reset (Sampler.resetSelf scfg s).sched = .ok e' := he
          simp only [if_true, q1]
        rw [Sampler.run, Sampler.step, hn]
        simp only [hs']
        rfl

/-- C120, why `flow_fields_per_batch` has to be `batch_size`: otherwise `make` accepts the configuration all the same, and every `next` raises
`ValueError`, whatever has been called before. -/
theorem C120_mismatch (E : Env) (arg : Make.Arg) (d : Make.Dict) (hd : Make.Spec.ConfigOf (world E) arg d) (s : Make.Smp)
    (h : Make.make (world E) arg = .ok s) (L : Nat) (hp : WithEpisodes d false L)
    (hrnd : Make.Spec.ValueOr d "randomize" (.bool false) (.bool false)) (b f : Int) (hb : Has d "batch_size" (IsInt b))
    (hf : Has d "flow_fields_per_batch" (IsInt f)) (hne : f ≠ b) (fuel : Nat) (ops : List Sampler.Op) :
    synthEpisodes E fuel ops s = some (ops.map mismatchOut) := by
  obtain ⟨files, dirs, c, key, cfg, a, m, f1, f2, f3, f4, f5, f6, f7, f8, f9, f10, f11⟩ := synth_episodes_built hd h hp hrnd
  have hB : b = (cfg.batchSize : Int) := by
    obtain ⟨v, v1, v2⟩ := hb
    obtain ⟨v', v1', v2'⟩ := f3
    rw [v1] at v1'
    cases v1'
    unfold IsInt at v2 v2'
    rw [v2] at v2'
    simpa using v2'
  have hF : f = a.ffpb := by
    obtain ⟨v, v1, v2⟩ := hf
    obtain ⟨v', v1', v2'⟩ := f4.ffpb
    rw [v1] at v1'
    cases v1'
    unfold IsInt at v2 v2'
    rw [v2] at v2'
    simpa using v2'
  have hsz : (m.cfg.ffpb : Int) = a.ffpb := (episodeSizes_of_make f5 f6).ffpb
  obtain ⟨e, he, hrun⟩ := f11 fuel
  have ht : e.t = 0 := by
    rw [Episodes.sample_drawn f9 _ _ key 0 _ rfl] at he
    simp only [Except.ok.injEq] at he
    rw [← he]
  obtain ⟨s', hs'⟩ := mismatch_run f9 _ _ (Synthetic.gen E.fl E.fl32 E.rand a m) m.cfg
    (by intro h0; apply hne; rw [hF, hB, ← hsz, h0]) ops (Sampler.init m.cfg e) ht rfl
  rw [hrun, hs']
  rfl

/-- Episodes that share no file and repeat none satisfy the condition of C120. -/
theorem C120_disjoint_suffices (L : Nat) (eps : List (List String)) (hlen : ∀ ep ∈ eps, ep.length = L) (hnd : ∀ ep ∈ eps, ep.Nodup)
    (hdisj : eps.Pairwise List.Disjoint) : Episodes.NoRepeat L eps :=
  fun _ h => Episodic.C22_disjoint_episodes_suffice L eps _ h hlen hnd hdisj

/-- A single episode satisfies it if the listings of the directories repeat no file. -/
theorem C120_single_suffices (E : Env) (dirs : List String) (L : Nat) (draws : Nat → List (List String)) (h : Draws E dirs L 1 draws)
    (hnd : ∀ dir ∈ dirs, (E.matFiles dir).Nodup) (k : Nat) : Episodes.NoRepeat L (draws k) := by
  obtain ⟨h1, h2⟩ := h k
  obtain ⟨ep, he⟩ := List.length_eq_one_iff.mp h1
  rw [he] at h2 ⊢
  obtain ⟨hl, dir, hdir, listing, hperm, _, hinf⟩ := h2 ep (by simp)
  refine C120_disjoint_suffices L [ep] (by simpa using hl) ?_ (by simp)
  intro e hm
  rw [List.mem_singleton.mp hm]
  exact hinf.sublist.nodup (hperm.nodup_iff.mpr (hnd dir hdir))

/-! ## A case -/

/-- The frames in two directories. -/
def demoFrames (dir : String) : List String :=
  if dir = "a" then ["a/2.mat", "a/1.mat", "a/3.mat"] else if dir = "b" then ["b/1.mat", "b/3.mat", "b/2.mat"] else []

/-- Two leaf directories with three frames each. A draw of two takes the first two frames of each. -/
def demoEpisodes : Env :=
  { demoFiles with
    isFile := fun _ => true
    matFiles := demoFrames
    os := ⟨fun p => if p.startsWith "a" then "a" else "b", fun _ => .entries [.file, .file, .file], List.dedup⟩
    choice := fun _ n b => (List.range b).map (fun i : Nat => 2 * i % n)
    mat := { demoFiles.mat with
      scipy := fun p =>
        if p = "a/1.mat" then .ok [("V", ⟨[1, 1, 2], [1, 0]⟩), ("I0", ⟨[1, 1], [11]⟩), ("I1", ⟨[1, 1], [12]⟩)]
        else if p = "a/2.mat" then .ok [("V", ⟨[1, 1, 2], [2, 0]⟩), ("I0", ⟨[1, 1], [21]⟩), ("I1", ⟨[1, 1], [22]⟩)]
        else if p = "b/1.mat" then .ok [("V", ⟨[1, 1, 2], [3, 0]⟩), ("I0", ⟨[1, 1], [31]⟩), ("I1", ⟨[1, 1], [32]⟩)]
        else .ok [("V", ⟨[1, 1, 2], [4, 0]⟩), ("I0", ⟨[1, 1], [41]⟩), ("I1", ⟨[1, 1], [42]⟩)] } }

/-- A configuration for the images of episodes of two frames. -/
def demoRealEpisodes : Make.Dict :=
  [("scheduler_class", .str ".mat"), ("batch_size", .int 2), ("flow_fields_per_batch", .int 1), ("include_images", .bool true),
   ("episode_length", .int 2), ("image_shape", .list [.int 1, .int 1]), ("file_list", .list [.str "b/1.mat", .str "a/1.mat", .str "a/2.mat"])]

/-- A configuration for synthetic images of them. -/
def demoSynthEpisodes : Make.Dict :=
  [("scheduler_class", .str ".mat"), ("episode_length", .int 2), ("batch_size", .int 2),
   ("file_list", .list [.str "b/1.mat", .str "a/1.mat", .str "a/2.mat"])] ++
    demoDict.filter (fun q => q.1 != "scheduler_class" && q.1 != "file_list" && q.1 != "batch_size")

/-- The names in a batch, and its done flags; `none` for an exception, and for a call that returns nothing. -/
def demoShown {A : Type} (files : A → Option (List String)) (done : A → Option (List Bool)) : Sampler.Out A → Option (List String × List Bool)
  | .batch x => some ((files x).getD [], (done x).getD [])
  | _ => none

example : WithEpisodes demoRealEpisodes true 2 ∧ WithEpisodes demoSynthEpisodes false 2 :=
  ⟨⟨rfl, .inr rfl, ⟨by decide, .inr ⟨_, rfl, rfl⟩⟩, by decide, ⟨by decide, .inl ⟨rfl, rfl⟩⟩⟩,
   ⟨rfl, .inl ⟨rfl, rfl⟩, ⟨by decide, .inr ⟨_, rfl, rfl⟩⟩, by decide, ⟨by decide, .inl ⟨rfl, rfl⟩⟩⟩⟩

/-- The real-image sampler: both steps, `EpisodeEnd`, the next episode. -/
example : (match Make.make (world demoEpisodes) (.dict demoRealEpisodes) with
    | .ok s => ((realEpisodes demoEpisodes 4 [.next, .next, .next, .nextEpisode, .next] s).getD []).map (demoShown Sampler.RealBatch.files Sampler.RealBatch.done)
    | .error _ => []) =
    [some (["b/1.mat", "a/1.mat"], [false, false]), some (["b/2.mat", "a/2.mat"], [true, true]), none, none,
     some (["b/1.mat", "a/1.mat"], [false, false])] := by decide +kernel

/-- The synthetic sampler. -/
example : (match Make.make (world demoEpisodes) (.dict demoSynthEpisodes) with
    | .ok s => ((synthEpisodes demoEpisodes 4 [.next, .next, .next, .nextEpisode, .next] s).getD []).map (demoShown Sampler.OutBatch.files Sampler.OutBatch.done)
    | .error _ => []) =
    [some (["b/1.mat", "a/1.mat"], [false, false]), some (["b/2.mat", "a/2.mat"], [true, true]), none, none,
     some (["b/1.mat", "a/1.mat"], [false, false])] := by decide +kernel

/-- The other hypotheses of `C120_synthetic_partial` and `C120_real_partial` are met. -/
example : LeafDirs.SetIter demoEpisodes.os.iterSet ∧ Formats.PilOK demoEpisodes.mat ∧
    Episodic.ChoiceOK (Key := KeyTerm) ⟨KeyTerm.split2, demoEpisodes.choice⟩ ∧
    LeafDirs.discover demoEpisodes.os false ["b/1.mat", "a/1.mat", "a/2.mat"] = .ok ["b", "a"] ∧
    RealPipeline.Contents demoEpisodes.mat 1 1 (["b", "a"].flatMap demoEpisodes.matFiles) (fun p =>
      if p = "a/1.mat" then some ⟨⟨[1, 1, 2], [1, 0]⟩, ⟨[1, 1], [11]⟩, ⟨[1, 1], [12]⟩⟩
      else if p = "a/2.mat" then some ⟨⟨[1, 1, 2], [2, 0]⟩, ⟨[1, 1], [21]⟩, ⟨[1, 1], [22]⟩⟩
      else if p = "b/1.mat" then some ⟨⟨[1, 1, 2], [3, 0]⟩, ⟨[1, 1], [31]⟩, ⟨[1, 1], [32]⟩⟩
      else some ⟨⟨[1, 1, 2], [4, 0]⟩, ⟨[1, 1], [41]⟩, ⟨[1, 1], [42]⟩⟩) ∧
    Episodes.NoRepeat 2 [["b/1.mat", "b/2.mat"], ["a/1.mat", "a/2.mat"]] := by
  refine ⟨fun l => ⟨List.nodup_dedup l, fun _ => List.mem_dedup⟩, ⟨demoFiles_pil.flow, demoFiles_pil.image⟩, ?_, by decide +kernel, ?_,
    C120_disjoint_suffices 2 _ (by decide) (by decide) (by simp [List.Disjoint])⟩
  · intro k n b hn
    refine ⟨by simp [demoEpisodes], ?_⟩
    intro i hi
    simp only [demoEpisodes, List.mem_map] at hi
    obtain ⟨j, _, rfl⟩ := hi
    exact Nat.mod_lt _ hn
  · intro p hp
    have hp' : p ∈ ["b/1.mat", "b/3.mat", "b/2.mat", "a/2.mat", "a/1.mat", "a/3.mat"] := hp
    simp only [List.mem_cons, List.not_mem_nil, or_false] at hp'
    rcases hp' with rfl | rfl | rfl | rfl | rfl | rfl
    all_goals exact ⟨⟨_, rfl, rfl, rfl, rfl⟩, rfl, rfl, rfl, rfl, rfl, rfl⟩

end Verif.Whole
