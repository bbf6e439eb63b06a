import Verif.Spec.Episodes
import Verif.Props.Episodic
import Verif.Props.RealPipeline
import Verif.Props.SynthAny
/-!
# Lemmas: episodes through the sampler
-/

namespace Verif.Episodes
open Verif

/-! ## The draws -/

/-- The keys of the episodic scheduler after each draw. -/
def keyAt {Key : Type} (rng : Episodic.Rng Key) (key : Key) : Nat → Key
  | 0 => key
  | k + 1 => (rng.split (keyAt rng key k)).1

/-- Draw number `k`. -/
def drawn {Key : Type} (rng : Episodic.Rng Key) (cfg : Episodic.Cfg) (key : Key) (k : Nat) : List (List String) :=
  ((rng.choice (rng.split (keyAt rng key k)).2 cfg.starts.length cfg.batchSize).map (fun i => cfg.starts.getD i ("", 0))).map
    (Episodic.window cfg)

section
variable {S B Key : Type} {glob : String → List String} {dirs : List String} {cfg : Episodic.Cfg}

theorem drawn_length (h : Episodic.CfgOK glob dirs cfg) {rng : Episodic.Rng Key} (hc : Episodic.ChoiceOK rng) (key : Key) (k : Nat) :
    (drawn rng cfg key k).length = cfg.batchSize := by
  unfold drawn
  rw [List.length_map, List.length_map, (hc _ _ _ (List.length_pos_iff.mpr h.ne)).1]

theorem drawn_episode (h : Episodic.CfgOK glob dirs cfg) {rng : Episodic.Rng Key} (hc : Episodic.ChoiceOK rng) (key : Key) (k : Nat) :
    ∀ ep ∈ drawn rng cfg key k, Episodic.IsEpisode glob dirs cfg.episodeLength ep := by
  intro ep hep
  simp only [drawn, List.map_map, List.mem_map, Function.comp_apply] at hep
  obtain ⟨i, hi, rfl⟩ := hep
  refine Episodic.window_episode h ?_
  have hlt := (hc (rng.split (keyAt rng key k)).2 cfg.starts.length cfg.batchSize (List.length_pos_iff.mpr h.ne)).2 i hi
  rw [List.getD_eq_getElem?_getD, List.getElem?_eq_getElem hlt]
  exact List.getElem_mem _

theorem sample_drawn (h : Episodic.CfgOK glob dirs cfg) (sch : Sched S B) (rng : Episodic.Rng Key) (key : Key) (k : Nat)
    (e : Episodic.St S Key) (he : e.key = keyAt rng key k) :
    Episodic.sample sch rng cfg e = .ok { e with
      inner := sch.reset (sch.setFileList (Episodic.interleave cfg.episodeLength cfg.batchSize (drawn rng cfg key k)) e.inner)
      key := keyAt rng key (k + 1) } := by
  have : cfg.starts.isEmpty = false := by simpa using h.ne
  unfold Episodic.sample
  rw [this]
  simp only [Bool.false_eq_true, if_false, drawn, keyAt, he]

end

/-! ## The wrapped scheduler -/

section
variable {D K Key : Type}

/-- The scheduler stands before step `t` of episode `k`. -/
structure At (w : Base.World ℚ D K) (frame : String → Base.Sample ℚ) (rng : Episodic.Rng Key) (cfg : Episodic.Cfg) (key : Key) (k t : Nat)
    (e : Episodic.St (Base.St D K) Key) : Prop where
  step : e.t = t
  le : t ≤ cfg.episodeLength
  hkey : e.key = keyAt rng key (k + 1)
  inv : Base.Inv w (fun p => [frame p]) e.inner
  queue : e.inner.fileList = Episodic.interleave cfg.episodeLength cfg.batchSize (drawn rng cfg key k)
  rem : Base.rem (fun p => [frame p]) e.inner =
    ((Episodic.interleave cfg.episodeLength cfg.batchSize (drawn rng cfg key k)).map frame).drop (t * cfg.batchSize)

/-- What is fixed. -/
structure Setting (w : Base.World ℚ D K) (frame : String → Base.Sample ℚ) (bcfg : Base.Cfg) (glob : String → List String) (dirs : List String)
    (rng : Episodic.Rng Key) (cfg : Episodic.Cfg) (fsh : List Nat) (o1 o2 : Option (List Nat)) : Prop where
  rand : bcfg.randomize = false
  cfgOK : Episodic.CfgOK glob dirs cfg
  choice : Episodic.ChoiceOK rng
  yields : ∀ d ∈ dirs, ∀ p ∈ glob d, Base.Yields w p [frame p]
  uniform : Base.Uniform ((dirs.flatMap glob).map frame) fsh o1 o2 true

variable {w : Base.World ℚ D K} {frame : String → Base.Sample ℚ} {bcfg : Base.Cfg} {glob : String → List String} {dirs : List String}
  {rng : Episodic.Rng Key} {cfg : Episodic.Cfg} {fsh : List Nat} {o1 o2 : Option (List Nat)}

theorem Setting.mem (h : Setting w frame bcfg glob dirs rng cfg fsh o1 o2) (key : Key) (k : Nat) :
    ∀ p ∈ Episodic.interleave cfg.episodeLength cfg.batchSize (drawn rng cfg key k), ∃ d ∈ dirs, p ∈ glob d := by
  intro p hp
  have h1 := drawn_length h.cfgOK h.choice key k
  have h2 := drawn_episode h.cfgOK h.choice key k
  generalize drawn rng cfg key k = eps at hp h1 h2
  rw [Episodic.interleave, List.mem_flatMap] at hp
  obtain ⟨t, htm, hp⟩ := hp
  obtain ⟨i, him, rfl⟩ := List.mem_map.mp hp
  rw [List.mem_range] at htm him
  rw [← h1] at him
  obtain ⟨hl, d, hdm, listing, hpm, _, hinf⟩ := h2 eps[i] (List.getElem_mem him)
  refine ⟨d, hdm, hpm.mem_iff.mp (hinf.subset ?_)⟩
  have hg : eps.getD i [] = eps[i] := by simp [List.getD_eq_getElem?_getD, List.getElem?_eq_getElem him]
  rw [hg, List.getD_eq_getElem?_getD, List.getElem?_eq_getElem (by omega), Option.getD_some]
  exact List.getElem_mem _

/-- A draw leads to the beginning of the episode. -/
theorem Setting.fresh (h : Setting w frame bcfg glob dirs rng cfg fsh o1 o2) {key : Key} {k : Nat}
    (hn : NoRepeat cfg.episodeLength (drawn rng cfg key k)) (s : Base.St D K) :
    At w frame rng cfg key k 0 ⟨Base.reset w bcfg { s with fileList := Episodic.interleave cfg.episodeLength cfg.batchSize (drawn rng cfg key k) }, 0,
      keyAt rng key (k + 1)⟩ := by
  have hl := drawn_length h.cfgOK h.choice key k
  have hq : (Base.reset w bcfg { s with fileList := Episodic.interleave cfg.episodeLength cfg.batchSize (drawn rng cfg key k) }).fileList =
      Episodic.interleave cfg.episodeLength cfg.batchSize (drawn rng cfg key k) := by simp [Base.reset, Base.shuffle, h.rand]
  have hchain : List.IsChain (· ≠ ·) (Episodic.interleave cfg.episodeLength cfg.batchSize (drawn rng cfg key k)) := by
    apply hn
    have := Episodic.interleave_sideBySide (L := cfg.episodeLength) (eps := drawn rng cfg key k)
      (fun ep hep => (drawn_episode h.cfgOK h.choice key k ep hep).1)
    rwa [hl] at this
  refine ⟨rfl, Nat.zero_le _, rfl, ?_, hq, ?_⟩
  · refine Base.inv_fresh ?_
    intro p hp
    obtain ⟨d, hd, hpd⟩ := h.mem key k p (hq ▸ hp)
    exact h.yields d hd p hpd
  · rw [Base.rem_fresh _ rfl rfl, Base.streamAfter_none, hq, Base.dropRepeats_eq_self _ hchain]
    rw [Episodic.flatMap_single _ frame _ (fun _ _ => rfl)]
    simp

/-- One step of the episode. -/
theorem Setting.serve (h : Setting w frame bcfg glob dirs rng cfg fsh o1 o2) {key : Key} {k t : Nat} {e : Episodic.St (Base.St D K) Key}
    (ha : At w frame rng cfg key k t e) (ht : t < cfg.episodeLength) {fuel : Nat} (hf : cfg.episodeLength * cfg.batchSize ≤ fuel) :
    ∃ b s', Base.getBatch 0 w bcfg fuel cfg.batchSize e.inner = some (.ok b, s') ∧
      Base.Shows 0 ((drawn rng cfg key k).map (fun ep => frame (ep.getD t ""))) cfg.batchSize b ∧
      At w frame rng cfg key k (t + 1) { e with t := e.t + 1, inner := s' } := by
  have hB : (t + 1) * cfg.batchSize ≤ cfg.episodeLength * cfg.batchSize := Nat.mul_le_mul_right _ (by omega)
  have hB' : (t + 1) * cfg.batchSize = t * cfg.batchSize + cfg.batchSize := by rw [Nat.add_mul, Nat.one_mul]
  have hlen : ((Episodic.interleave cfg.episodeLength cfg.batchSize (drawn rng cfg key k)).map frame).length =
      cfg.episodeLength * cfg.batchSize := by rw [List.length_map, Episodic.interleave_length]
  have hn : cfg.batchSize ≤ (Base.rem (fun p => [frame p]) e.inner).length := by rw [ha.rem, List.length_drop, hlen]; omega
  obtain ⟨s', g1, g2, g3, g4⟩ := Episodic.getBatch_within (cfg := bcfg) 0 h.cfgOK.pos ha.inv hn
  have hlt : ((Base.rem (fun p => [frame p]) e.inner).take cfg.batchSize).length = cfg.batchSize := by rw [List.length_take]; omega
  have hne : (Base.rem (fun p => [frame p]) e.inner).take cfg.batchSize ≠ [] := by
    intro h0
    rw [h0] at hlt
    have := h.cfgOK.pos
    simp at hlt
    omega
  have hsub : Base.Uniform ((Base.rem (fun p => [frame p]) e.inner).take cfg.batchSize) fsh o1 o2 true := by
    refine Base.uniform_sub h.uniform fun x hx => ?_
    rw [ha.rem] at hx
    obtain ⟨p, hp, rfl⟩ := List.mem_map.mp (List.mem_of_mem_drop (List.mem_of_mem_take hx))
    obtain ⟨d, hd, hpd⟩ := h.mem key k p hp
    exact List.mem_map.mpr ⟨p, List.mem_flatMap.mpr ⟨d, hd, hpd⟩, rfl⟩
  obtain ⟨b, hb, hshow, _⟩ := Base.assemble_uniform 0 bcfg (n := cfg.batchSize) hne (by omega) (fun _ => hlt) hsub
  refine ⟨b, s', ?_, ?_, ?_⟩
  · rw [g4 fuel (by rw [ha.queue, Episodic.interleave_length]; exact hf), hb]
  · have heq : (Base.rem (fun p => [frame p]) e.inner).take cfg.batchSize = (drawn rng cfg key k).map (fun ep => frame (ep.getD t "")) := by
      have hl := drawn_length h.cfgOK h.choice key k
      rw [ha.rem]
      generalize drawn rng cfg key k = eps at hl ⊢
      apply List.ext_getElem?
      intro i
      by_cases hi : i < cfg.batchSize
      · rw [List.getElem?_take_of_lt hi, List.getElem?_drop, List.getElem?_map, Episodic.interleave_get ht hi,
          List.getElem?_map, List.getElem?_eq_getElem (by omega)]
        simp [List.getD_eq_getElem?_getD, List.getElem?_eq_getElem (show i < eps.length by omega)]
      · rw [List.getElem?_eq_none (by rw [List.length_take]; omega), List.getElem?_eq_none (by rw [List.length_map]; omega)]
    rw [heq] at hshow
    exact hshow
  · refine ⟨by rw [← ha.step], by omega, ha.hkey, g1, by rw [← ha.queue]; exact g3, ?_⟩
    rw [g2, ha.rem, List.drop_drop, hB']

/-! ## The synthetic sampler -/

/-- The sampler stands before step `t` of episode `k`, with `n` batches made since the last reset. -/
structure SAt {F O : Type} (w : Base.World ℚ D K) (frame : String → Base.Sample ℚ) (rng : Episodic.Rng Key) (cfg : Episodic.Cfg) (key : Key)
    (scfg : Sampler.Cfg) (k t n : Nat) (s : Sampler.St (Episodic.St (Base.St D K) Key) F O) : Prop where
  at_ : At w frame rng cfg key k t s.sched
  hrng : s.rng = Nat.repeat (fun k => .sub k 2 0) n (.seed scfg.seed)
  cur : s.cur = none ∨ scfg.bpfb ≤ s.generated

theorem steps_eq (cfg : Episodic.Cfg) {e : Episodic.St (Base.St D K) Key} {t : Nat} (h : e.t = t) :
    decide (Episodic.stepsRemaining cfg e = 0) = decide (t = cfg.episodeLength) := by
  unfold Episodic.stepsRemaining
  rw [h]
  apply decide_eq_decide.mpr
  omega

variable {F O I B : Type}

theorem Setting.restart (h : Setting w frame bcfg glob dirs rng cfg fsh o1 o2) {key : Key} {k t : Nat} {e : Episodic.St (Base.St D K) Key}
    (ha : At w frame rng cfg key k t e) (hn : NoRepeat cfg.episodeLength (drawn rng cfg key (k + 1)))
    {sch : Sched (Base.St D K) B} (hr : ∀ l s, sch.reset (sch.setFileList l s) = Base.reset w bcfg { s with fileList := l }) :
    ∃ e', Episodic.nextEpisode sch rng cfg e = .ok e' ∧ At w frame rng cfg key (k + 1) 0 e' := by
  unfold Episodic.nextEpisode
  rw [sample_drawn h.cfgOK sch rng key (k + 1) e ha.hkey, hr]
  exact ⟨_, rfl, h.fresh hn _⟩

/-- A batch for the step. -/
theorem Setting.sampler_next (h : Setting w frame bcfg glob dirs rng cfg fsh o1 o2) {key : Key} {k t n : Nat}
    (g : Sampler.Gen (Adapter.Field2 ℚ) O I) {scfg : Sampler.Cfg} (hok : scfg.OK) (hb : scfg.ffpb = cfg.batchSize) (hk : scfg.bpfb = 1)
    (hdv : scfg.ffpb % scfg.ndevices = 0) {s : Sampler.St (Episodic.St (Base.St D K) Key) (Adapter.Field2 ℚ) O}
    (ha : SAt w frame rng cfg key scfg k t n s) (ht : t < cfg.episodeLength) {fuel : Nat} (hf : cfg.episodeLength * cfg.batchSize ≤ fuel) :
    ∃ b x s', Sampler.next (Sampler.ofEpisodic (Synthetic.fieldSched w bcfg fuel) rng cfg) g scfg s = some (.ok x, s') ∧
      Base.Shows 0 ((drawn rng cfg key k).map (fun ep => frame (ep.getD t ""))) cfg.batchSize b ∧
      Sampler.MadeFrom g scfg (Sampler.batchKey scfg.seed n) (SynthPipeline.view b) x ∧
      x.done = doneFlags cfg.episodeLength scfg.batchSize t ∧ SAt w frame rng cfg key scfg k (t + 1) (n + 1) s' := by
  obtain ⟨b, sc, g1, g2, g3⟩ := h.serve ha.at_ ht hf
  have hview : (SynthPipeline.view b).flows.length = cfg.batchSize := by
    have hne : (drawn rng cfg key k).map (fun ep => frame (ep.getD t "")) ≠ [] := by
      intro h0
      have := congrArg List.length h0
      rw [List.length_map, drawn_length h.cfgOK h.choice] at this
      have := h.cfgOK.pos
      simp_all
    obtain ⟨x, hx⟩ := List.exists_mem_of_ne_nil _ hne
    show (b.flow.rows.map _).length = _
    rw [List.length_map]
    unfold Arr.rows
    rw [List.length_map, List.length_range, g2.flow_shape x hx]
    rfl
  have hget : (Sampler.ofEpisodic (Synthetic.fieldSched w bcfg fuel) rng cfg).getBatch scfg.ffpb s.sched =
      some (.ok (SynthPipeline.view b), { s.sched with t := s.sched.t + 1, inner := sc }) := by
    show Episodic.getBatch _ _ _ _ = _
    unfold Episodic.getBatch
    rw [if_neg (by rw [hb]; simp), if_neg (by rw [ha.at_.step]; omega)]
    have : (Synthetic.fieldSched w bcfg fuel).getBatch scfg.ffpb s.sched.inner = some (.ok (SynthPipeline.view b), sc) := by
      show ((Base.getBatch 0 w bcfg fuel scfg.ffpb s.sched.inner).map _) = _
      rw [hb, g1]
      rfl
    rw [this]
  have hover : Sampler.episodeOver (Sampler.ofEpisodic (Synthetic.fieldSched w bcfg fuel) rng cfg) s.sched = false := by
    show decide _ = false
    rw [steps_eq cfg ha.at_.step]
    simp only [decide_eq_false_iff_not]
    omega
  have hdone : Sampler.makeDone (Sampler.ofEpisodic (Synthetic.fieldSched w bcfg fuel) rng cfg) scfg.batchSize
      { s.sched with t := s.sched.t + 1, inner := sc } = doneFlags cfg.episodeLength scfg.batchSize t := by
    show some (List.replicate _ (decide _)) = _
    rw [steps_eq cfg (show _ = t + 1 from by rw [← ha.at_.step])]
    rfl
  have hfd : (SynthPipeline.view b).flows.length % scfg.ndevices = 0 := by rw [hview, ← hb]; exact hdv
  have hfd2 : (Sampler.adaptAll g scfg (SynthPipeline.view b).flows).2.length % scfg.ndevices = 0 := by
    show ((SynthPipeline.view b).flows.map _).length % _ = 0
    rw [List.length_map]; exact hfd
  have hfetch : Sampler.getNext (Sampler.ofEpisodic (Synthetic.fieldSched w bcfg fuel) rng cfg) g scfg s =
      Sampler.getNext.fetch (Sampler.ofEpisodic (Synthetic.fieldSched w bcfg fuel) rng cfg) g scfg s := by
    unfold Sampler.getNext
    rcases ha.cur with hc | hc
    · rw [hc]
    · cases hcur : s.cur with
      | none => rfl
      | some fl => dsimp only; rw [if_neg (by omega)]
  have hm := Sampler.MadeFrom.of_images g scfg hok (Sampler.batchKey scfg.seed n) (SynthPipeline.view b)
    (by rw [hview]; exact h.cfgOK.pos) hfd (doneFlags cfg.episodeLength scfg.batchSize t)
  refine ⟨b, _, ⟨{ s.sched with t := s.sched.t + 1, inner := sc }, s.rng.split2.1,
    some (Sampler.adaptAll g scfg (SynthPipeline.view b).flows).2, (Sampler.adaptAll g scfg (SynthPipeline.view b).flows).1,
    (SynthPipeline.view b).mask, (SynthPipeline.view b).files, 1⟩, ?_, g2, hm, rfl, ?_⟩
  · unfold Sampler.next
    rw [hover, hfetch]
    unfold Sampler.getNext.fetch
    rw [hget]
    dsimp only
    rw [if_neg (by simp), if_neg (by rw [hfd]; simp)]
    unfold Sampler.produce
    dsimp only
    rw [if_neg (by rw [hfd2]; simp)]
    dsimp only
    rw [hdone]
    have : s.rng.split2.2 = Sampler.batchKey scfg.seed n := by rw [ha.hrng]; rfl
    rw [this]
  · refine ⟨g3, ?_, ?_⟩
    · show s.rng.split2.1 = _
      rw [ha.hrng]
      rfl
    · right
      rw [hk]

theorem Setting.sampler_over (h : Setting w frame bcfg glob dirs rng cfg fsh o1 o2) {key : Key} {k t n : Nat}
    (g : Sampler.Gen F O I) {scfg : Sampler.Cfg} {s : Sampler.St (Episodic.St (Base.St D K) Key) F O}
    (ha : SAt w frame rng cfg key scfg k t n s) (ht : ¬ t < cfg.episodeLength) (sch : Sched (Base.St D K) (Sampler.FlowBatch F)) :
    Sampler.next (Sampler.ofEpisodic sch rng cfg) g scfg s = some (.error .episodeEnd, s) := by
  have hover : Sampler.episodeOver (Sampler.ofEpisodic sch rng cfg) s.sched = true := by
    show decide _ = true
    rw [steps_eq cfg ha.at_.step]
    have := ha.at_.le
    simp only [decide_eq_true_eq]
    omega
  unfold Sampler.next
  rw [if_pos hover]

/-- Every history of calls on the synthetic sampler is one of the player. -/
theorem Setting.sampler_run (h : Setting w frame bcfg glob dirs rng cfg fsh o1 o2) (key : Key)
    (g : Sampler.Gen (Adapter.Field2 ℚ) O I) {scfg : Sampler.Cfg} (hok : scfg.OK) (hb : scfg.ffpb = cfg.batchSize) (hk : scfg.bpfb = 1)
    (hdv : scfg.ffpb % scfg.ndevices = 0) {fuel : Nat} (hf : cfg.episodeLength * cfg.batchSize ≤ fuel) :
    ∀ (ops : List Sampler.Op) (k t n : Nat) (s : Sampler.St (Episodic.St (Base.St D K) Key) (Adapter.Field2 ℚ) O),
    SAt w frame rng cfg key scfg k t n s → (∀ j, j ≤ begun ops → NoRepeat cfg.episodeLength (drawn rng cfg key (k + j))) →
    ∃ outs s', Sampler.run (Sampler.ofEpisodic (Synthetic.fieldSched w bcfg fuel) rng cfg) g scfg ops s = some (outs, s') ∧
      Plays cfg.episodeLength (fun k t n x => ∃ b, Base.Shows 0 ((drawn rng cfg key k).map (fun ep => frame (ep.getD t ""))) cfg.batchSize b ∧
        Sampler.MadeFrom g scfg (Sampler.batchKey scfg.seed n) (SynthPipeline.view b) x ∧
        x.done = doneFlags cfg.episodeLength scfg.batchSize t) k t n ops outs := by
  intro ops
  induction ops with
  | nil => intro k t n s _ _; exact ⟨[], s, rfl, rfl⟩
  | cons op ops ih =>
    intro k t n s ha hn
    cases op with
    | next =>
      by_cases ht : t < cfg.episodeLength
      · obtain ⟨b, x, s1, g1, g2, g3, g4, g5⟩ := h.sampler_next g hok hb hk hdv ha ht hf
        obtain ⟨outs, s2, r1, r2⟩ := ih k (t + 1) (n + 1) s1 g5 hn
        refine ⟨.batch x :: outs, s2, ?_, ?_⟩
        · rw [Sampler.run, Sampler.step, g1]
          simp only [Option.map_some, r1]
          rfl
        · rw [Plays, if_pos ht]
          exact ⟨x, outs, rfl, ⟨b, g2, g3, g4⟩, r2⟩
      · obtain ⟨outs, s2, r1, r2⟩ := ih k t n s ha hn
        refine ⟨.raised .episodeEnd :: outs, s2, ?_, ?_⟩
        · rw [Sampler.run, Sampler.step, h.sampler_over g ha ht]
          simp only [Option.map_some, r1]
          rfl
        · rw [Plays, if_neg ht]
          exact ⟨outs, rfl, r2⟩
    | nextEpisode =>
      obtain ⟨e', q1, q2⟩ := h.restart ha.at_ (hn 1 (by simp [begun])) (sch := Synthetic.fieldSched w bcfg fuel) (fun _ _ => rfl)
      obtain ⟨outs, s2, r1, r2⟩ := ih (k + 1) 0 n { s with sched := e' } ⟨q2, ha.hrng, ha.cur⟩
        (fun j hj => by rw [Nat.add_assoc, Nat.add_comm 1 j]; exact hn (j + 1) (by simpa [begun] using hj))
      refine ⟨.done :: outs, s2, ?_, outs, rfl, r2⟩
      have hne : Sampler.nextEpisode (Sampler.ofEpisodic (Synthetic.fieldSched w bcfg fuel) rng cfg) s = (.ok (), { s with sched := e' }) := by
        unfold Sampler.nextEpisode
        rw [show (Sampler.ofEpisodic (Synthetic.fieldSched w bcfg fuel) rng cfg).episodic =
          some (Episodic.stepsRemaining cfg, Episodic.nextEpisode (Synthetic.fieldSched w bcfg fuel) rng cfg) from rfl]
        simp only [q1]
      rw [Sampler.run, Sampler.step, hne]
      simp only [r1]
      rfl
    | reset b =>
      cases b with
      | false =>
        obtain ⟨outs, s2, r1, r2⟩ := ih k t 0 (Sampler.resetSelf scfg s) ⟨ha.at_, rfl, .inl rfl⟩ hn
        refine ⟨.done :: outs, s2, ?_, outs, rfl, r2⟩
        have hne : Sampler.reset (Sampler.ofEpisodic (Synthetic.fieldSched w bcfg fuel) rng cfg) scfg false s = (.ok (), Sampler.resetSelf scfg s) := rfl
        rw [Sampler.run, Sampler.step, hne]
        simp only [r1]
        rfl
      | true =>
        obtain ⟨e', q1, q2⟩ := h.restart ha.at_ (hn 1 (by simp [begun])) (sch := Synthetic.fieldSched w bcfg fuel) (fun _ _ => rfl)
        obtain ⟨outs, s2, r1, r2⟩ := ih (k + 1) 0 0 { Sampler.resetSelf scfg s with sched := e' } ⟨q2, rfl, .inl rfl⟩
          (fun j hj => by rw [Nat.add_assoc, Nat.add_comm 1 j]; exact hn (j + 1) (by simpa [begun] using hj))
        refine ⟨.done :: outs, s2, ?_, outs, rfl, r2⟩
        have hne : Sampler.reset (Sampler.ofEpisodic (Synthetic.fieldSched w bcfg fuel) rng cfg) scfg true s =
            (.ok (), { Sampler.resetSelf scfg s with sched := e' }) := by
          unfold Sampler.reset
          have q1' : (Sampler.ofEpisodic (Synthetic.fieldSched w bcfg fuel) rng cfg).reset (Sampler.resetSelf scfg s).sched = .ok e' := q1
          simp only [if_true, q1']
        rw [Sampler.run, Sampler.step, hne]
        simp only [r1]
        rfl

/-! ## The real-image sampler -/

theorem Setting.real_run (h : Setting w frame bcfg glob dirs rng cfg fsh o1 o2) (key : Key) {fuel : Nat}
    (hf : cfg.episodeLength * cfg.batchSize ≤ fuel) :
    ∀ (ops : List Sampler.Op) (k t n : Nat) (e : Episodic.St (Base.St D K) Key),
    At w frame rng cfg key k t e → (∀ j, j ≤ begun ops → NoRepeat cfg.episodeLength (drawn rng cfg key (k + j))) →
    ∃ outs e', Sampler.realHistory (Sampler.ofEpisodic (Base.sched 0 w bcfg fuel) rng cfg) cfg.batchSize ops e = some (outs, e') ∧
      Plays cfg.episodeLength (fun k t _ x => ∃ b, Base.Shows 0 ((drawn rng cfg key k).map (fun ep => frame (ep.getD t ""))) cfg.batchSize b ∧
        x = { RealPipeline.asReal b with done := doneFlags cfg.episodeLength cfg.batchSize t }) k t n ops outs := by
  intro ops
  induction ops with
  | nil => intro k t n e _ _; exact ⟨[], e, rfl, rfl⟩
  | cons op ops ih =>
    intro k t n e ha hn
    have hrest : (∀ j, j ≤ begun ops + 1 → NoRepeat cfg.episodeLength (drawn rng cfg key (k + j))) →
        ∃ e', Episodic.nextEpisode (Base.sched 0 w bcfg fuel) rng cfg e = .ok e' ∧ ∀ n, ∃ outs e'',
        Sampler.realHistory (Sampler.ofEpisodic (Base.sched 0 w bcfg fuel) rng cfg) cfg.batchSize ops e' = some (outs, e'') ∧
        Plays cfg.episodeLength (fun k t _ x => ∃ b, Base.Shows 0 ((drawn rng cfg key k).map (fun ep => frame (ep.getD t ""))) cfg.batchSize b ∧
          x = { RealPipeline.asReal b with done := doneFlags cfg.episodeLength cfg.batchSize t }) (k + 1) 0 n ops outs := by
      intro hn
      obtain ⟨e', q1, q2⟩ := h.restart ha (hn 1 (by omega)) (sch := Base.sched 0 w bcfg fuel) (fun _ _ => rfl)
      refine ⟨e', q1, fun n => ?_⟩
      exact ih (k + 1) 0 n e' q2 (fun j hj => by rw [Nat.add_assoc, Nat.add_comm 1 j]; exact hn (j + 1) (by omega))
    cases op with
    | next =>
      by_cases ht : t < cfg.episodeLength
      · obtain ⟨b, sc, g1, g2, g3⟩ := h.serve ha ht hf
        obtain ⟨outs, e2, r1, r2⟩ := ih k (t + 1) (n + 1) _ g3 hn
        have hget : (Sampler.ofEpisodic (Base.sched 0 w bcfg fuel) rng cfg).getBatch cfg.batchSize e =
            some (.ok b, { e with t := e.t + 1, inner := sc }) := by
          show Episodic.getBatch _ _ _ _ = _
          unfold Episodic.getBatch
          rw [if_neg (by simp), if_neg (by rw [ha.step]; omega)]
          rw [show (Base.sched 0 w bcfg fuel).getBatch cfg.batchSize e.inner = some (.ok b, sc) from g1]
        have hover : Sampler.episodeOver (Sampler.ofEpisodic (Base.sched 0 w bcfg fuel) rng cfg) e = false := by
          show decide _ = false
          rw [steps_eq cfg ha.step]
          simp only [decide_eq_false_iff_not]
          omega
        have hdone : Sampler.makeDone (Sampler.ofEpisodic (Base.sched 0 w bcfg fuel) rng cfg) cfg.batchSize
            { e with t := e.t + 1, inner := sc } = doneFlags cfg.episodeLength cfg.batchSize t := by
          show some (List.replicate _ (decide _)) = _
          rw [steps_eq cfg (show _ = t + 1 from by rw [← ha.step])]
          rfl
        refine ⟨.batch { RealPipeline.asReal b with done := doneFlags cfg.episodeLength cfg.batchSize t } :: outs, e2, ?_, ?_⟩
        · rw [Sampler.realHistory, Sampler.realStep, Sampler.realNext, hover, Sampler.realGetNext, hget]
          simp only [Bool.false_eq_true, if_false, Option.map_some, r1, hdone]
          rfl
        · rw [Plays, if_pos ht]
          exact ⟨_, outs, rfl, ⟨b, g2, rfl⟩, r2⟩
      · obtain ⟨outs, e2, r1, r2⟩ := ih k t n e ha hn
        have hover : Sampler.episodeOver (Sampler.ofEpisodic (Base.sched 0 w bcfg fuel) rng cfg) e = true := by
          show decide _ = true
          rw [steps_eq cfg ha.step]
          have := ha.le
          simp only [decide_eq_true_eq]
          omega
        refine ⟨.raised .episodeEnd :: outs, e2, ?_, ?_⟩
        · rw [Sampler.realHistory, Sampler.realStep, Sampler.realNext, if_pos hover]
          simp only [Option.map_some, r1]
          rfl
        · rw [Plays, if_neg ht]
          exact ⟨outs, rfl, r2⟩
    | nextEpisode =>
      obtain ⟨e', q1, q2⟩ := hrest (by simpa [begun] using hn)
      obtain ⟨outs, e2, r1, r2⟩ := q2 n
      refine ⟨.done :: outs, e2, ?_, outs, rfl, r2⟩
      rw [Sampler.realHistory]
      have : Sampler.realStep (Sampler.ofEpisodic (Base.sched 0 w bcfg fuel) rng cfg) cfg.batchSize e .nextEpisode = some (.done, e') := by
        unfold Sampler.realStep
        rw [show (Sampler.ofEpisodic (Base.sched 0 w bcfg fuel) rng cfg).episodic =
          some (Episodic.stepsRemaining cfg, Episodic.nextEpisode (Base.sched 0 w bcfg fuel) rng cfg) from rfl]
        simp only [q1]
      rw [this]
      simp only [r1]
    | reset b =>
      cases b with
      | false =>
        obtain ⟨outs, e2, r1, r2⟩ := ih k t 0 e ha hn
        refine ⟨.done :: outs, e2, ?_, outs, rfl, r2⟩
        rw [Sampler.realHistory, Sampler.realStep]
        simp only [r1]
      | true =>
        obtain ⟨e', q1, q2⟩ := hrest (by simpa [begun] using hn)
        obtain ⟨outs, e2, r1, r2⟩ := q2 0
        refine ⟨.done :: outs, e2, ?_, outs, rfl, r2⟩
        rw [Sampler.realHistory]
        have : Sampler.realStep (Sampler.ofEpisodic (Base.sched 0 w bcfg fuel) rng cfg) cfg.batchSize e (.reset true) = some (.done, e') := by
          unfold Sampler.realStep
          rw [show (Sampler.ofEpisodic (Base.sched 0 w bcfg fuel) rng cfg).reset e = .ok e' from q1]
        rw [this]
        simp only [r1]

/-- What is said about the batches may be weakened. -/
theorem Plays.mono {A : Type} {L : Nat} {P Q : Nat → Nat → Nat → A → Prop} {all : List (Sampler.Out A)}
    (hpq : ∀ k t n x, t < L → .batch x ∈ all → P k t n x → Q k t n x) :
    ∀ (ops : List Sampler.Op) (k t n : Nat) (outs : List (Sampler.Out A)), (∀ o ∈ outs, o ∈ all) → Plays L P k t n ops outs →
      Plays L Q k t n ops outs := by
  intro ops
  induction ops with
  | nil => intro k t n outs _ h; exact h
  | cons op ops ih =>
    intro k t n outs hall h
    cases op with
    | next =>
      rw [Plays] at h ⊢
      by_cases ht : t < L
      · rw [if_pos ht] at h ⊢
        obtain ⟨x, rest, rfl, h2, h3⟩ := h
        exact ⟨x, rest, rfl, hpq _ _ _ _ ht (hall _ (by simp)) h2, ih _ _ _ _ (fun o ho => hall o (List.mem_cons_of_mem _ ho)) h3⟩
      · rw [if_neg ht] at h ⊢
        obtain ⟨rest, rfl, h3⟩ := h
        exact ⟨rest, rfl, ih _ _ _ _ (fun o ho => hall o (List.mem_cons_of_mem _ ho)) h3⟩
    | nextEpisode =>
      obtain ⟨rest, rfl, h3⟩ := h
      exact ⟨rest, rfl, ih _ _ _ _ (fun o ho => hall o (List.mem_cons_of_mem _ ho)) h3⟩
    | reset b =>
      cases b <;>
      · obtain ⟨rest, rfl, h3⟩ := h
        exact ⟨rest, rfl, ih _ _ _ _ (fun o ho => hall o (List.mem_cons_of_mem _ ho)) h3⟩

end

end Verif.Episodes
