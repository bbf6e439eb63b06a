import Verif.Proofs.SamplerMore
import Verif.Props.Base
/-!
# Properties of the samplers (C33-C41)
-/

namespace Verif.Sampler
open Verif
variable {S F O I Key : Type}

/-! ## Demonstration objects

Flow fields are numbers; the reported flow field is the number itself, the one for rendering is 100 more; an image is
the pair of the rendered flow field and the number of the image on its device. -/

/-- A generator that shows what it was given. -/
def demoGen : Gen Nat Nat (Nat × Nat) := ⟨fun f => (f, f + 100), fun _ _ i f => (f, i)⟩

/-- A scheduler with three batches: `0 1 ...`, `10 11 ...`, `20 21 ...`. -/
def demoSched : ISched Nat (FlowBatch Nat) where
  getBatch n s := some (if s < 3 then (.ok ⟨(List.range n).map (· + 10 * s), some (List.replicate n true), none⟩, s + 1)
    else (.error .stopIteration, s))
  reset _ := .ok 0
  episodic := none

/-- A scheduler with episodes of one step, as a prefetching scheduler shows them: state is episode and time step. -/
def demoEpisodes : ISched (Nat × Nat) (FlowBatch Nat) where
  getBatch n s := some (if s.2 < 1 then (.ok ⟨(List.range n).map (· + 10 * s.1), none, none⟩, (s.1, s.2 + 1))
    else (.error .episodeEnd, s))
  reset s := .ok (s.1 + 1, 0)
  episodic := some (fun s => 1 - (s.2 : Int), fun s => .ok (s.1 + 1, 0))

/-! ## C38 -/

/-- C38: whenever the constructor accepts, the batch size is the least multiple of the number of devices that is at
least the requested one. -/
theorem C38_least_multiple (b : Int) (nd : Nat) (ep : Bool) (bpfb ffpb seed : Int) (cfg : Cfg)
    (h : Cfg.make b nd ep bpfb ffpb seed = .ok cfg) :
    cfg.ndevices = nd ∧ nd ∣ cfg.batchSize ∧ b ≤ cfg.batchSize ∧
    ∀ m : Nat, nd ∣ m → b ≤ m → cfg.batchSize ≤ m := by
  obtain ⟨h1, h2, _, _, _, _, rfl⟩ := Cfg.make_ok h
  obtain ⟨n, rfl⟩ : ∃ n : Nat, b = n := ⟨b.toNat, by omega⟩
  simp only [Int.toNat_natCast]
  refine ⟨trivial, Nat.dvd_of_mod_eq_zero (roundUp_dvd _ _), ?_, ?_⟩
  · unfold roundUp
    by_cases h : n % nd ≠ 0
    · rw [if_pos h]
      have := Nat.div_add_mod n nd
      have := Nat.mod_lt n h2
      rw [Nat.add_mul, Nat.mul_comm]
      omega
    · rw [if_neg h]
  · intro m hm hle
    have hle' : n ≤ m := by omega
    unfold roundUp
    by_cases h : n % nd ≠ 0
    · rw [if_pos h]
      obtain ⟨k, rfl⟩ := hm
      rw [Nat.mul_comm nd k]
      apply Nat.mul_le_mul_right
      have hlt : n / nd < k := by
        rcases Nat.lt_or_ge (n / nd) k with h' | h'
        · exact h'
        · exfalso
          have h3 := Nat.mul_le_mul_left nd h'
          have h4 := Nat.div_add_mod n nd
          omega
      omega
    · rw [if_neg h]; exact hle'

/-- Seven images on three devices become nine. -/
example : (Cfg.make 7 3 false 1 1 0).map (·.batchSize) = .ok 9 := rfl

/-! ## C34 and C36 -/

/-- C34 for an uninterrupted run, with C36 inside: in every run of `next` calls that all succeed, image batch `n` is made
(see `MadeFrom`) from flow batch `⌊n / batches_per_flow_batch⌋` of the scheduler, and the scheduler is asked no more often
than that. Missing: runs with `next_episode` in between when the sampler does not know that its scheduler is episodic
(`C34_refuted`), and runs that go on after an exception (`C35_refuted`). -/
theorem C34_flow_batch_used_partial (sch : ISched S (FlowBatch F)) (hfull : FullBatches sch) (g : Gen F O I)
    (b : Int) (nd : Nat) (ep : Bool) (bpfb ffpb seed : Int) (cfg : Cfg) (h : Cfg.make b nd ep bpfb ffpb seed = .ok cfg)
    (s0 : S) (N : Nat) (outs : List (Out (OutBatch O I))) (s : St S F O)
    (hr : run sch g cfg (List.replicate N .next) (init cfg s0) = some (outs, s)) (hall : ∀ o ∈ outs, ∃ x, o = .batch x) :
    ∃ bs : List (FlowBatch F), Draws sch cfg.ffpb s0 bs s.sched ∧ outs.length = N ∧
      (N = 0 → bs = []) ∧ (0 < N → bs.length = (N - 1) / cfg.bpfb + 1) ∧
      ∀ n, n < N → ∃ x b, outs[n]? = some (.batch x) ∧ bs[n / cfg.bpfb]? = some b ∧
        MadeFrom g cfg (batchKey cfg.seed n) b x := by
  have hc := Cfg.ok_of_make h
  obtain ⟨bs, _, ha, hl, hj⟩ := After.run hc hfull N 0 [] _ _ _ (After.init sch g cfg s0) hr hall
  rw [Nat.zero_add] at ha
  refine ⟨bs, ha.draws, hl, fun hN => (ha.start hN).2, fun hN => ?_, fun n hn => ?_⟩
  · obtain ⟨_, _, _, _, _, _, _, h5, _⟩ := ha.last hN
    exact h5
  · obtain ⟨x, c, h1, h2, h3⟩ := hj n hn
    rw [Nat.zero_add] at h2 h3
    exact ⟨x, c, h1, h2, h3⟩

/-- Five image batches of three images from two flow fields each, two image batches per flow batch: reported flow fields. -/
example : ∃ cfg, Cfg.make 3 1 false 2 2 0 = .ok cfg ∧
    (run demoSched demoGen cfg (List.replicate 5 .next) (init cfg 0)).map (fun q => q.1.map (fun o => match o with
      | .batch x => x.flows | _ => [])) =
    some [[0, 1, 0], [0, 1, 0], [10, 11, 10], [10, 11, 10], [20, 21, 20]] := ⟨_, rfl, by decide⟩

/-- C34 when the sampler knows that its scheduler is episodic (then `batches_per_flow_batch` is forced to 1): in every
history of `next`, `next_episode` and `reset` calls in which no call has raised anything but the `EpisodeEnd` of a finished
episode, each image batch is made from the flow batch that the scheduler returns during that very call. -/
theorem C34_episodic_fresh (sch : ISched S (FlowBatch F)) (hfull : FullBatches sch) (g : Gen F O I)
    (hend : ∀ n s s', sch.getBatch n s = some (.error .episodeEnd, s') → episodeOver sch s = true)
    (b : Int) (nd : Nat) (bpfb ffpb seed : Int) (cfg : Cfg) (h : Cfg.make b nd true bpfb ffpb seed = .ok cfg)
    (s0 : S) (ops : List Op) (outs : List (Out (OutBatch O I))) (s s' : St S F O) (x : OutBatch O I)
    (hr : run sch g cfg ops (init cfg s0) = some (outs, s)) (hall : ∀ o ∈ outs, ∀ e, o = .raised e → e = .episodeEnd)
    (hx : next sch g cfg s = some (.ok x, s')) :
    ∃ b k, sch.getBatch cfg.ffpb s.sched = some (.ok b, s'.sched) ∧ MadeFrom g cfg k b x := by
  have hc := Cfg.ok_of_make h
  have hk : cfg.bpfb = 1 := by
    obtain ⟨_, _, _, _, _, _, rfl⟩ := Cfg.make_ok h
    by_cases hb : bpfb = 1
    · subst hb; rfl
    · simp [hb]
  have main : ∀ (ops : List Op) (outs : List (Out (OutBatch O I))) (a s : St S F O), (a.cur = none ∨ 1 ≤ a.generated) →
      run sch g cfg ops a = some (outs, s) → (∀ o ∈ outs, ∀ e, o = .raised e → e = .episodeEnd) →
      (s.cur = none ∨ 1 ≤ s.generated) := by
    intro ops
    induction ops with
    | nil =>
      intro outs a s ha hr _
      simp only [run, Option.some.injEq, Prod.mk.injEq] at hr
      rw [← hr.2]; exact ha
    | cons op ops ih =>
      intro outs a s ha hr hall
      obtain ⟨o, a1, os, hst, hrn, rfl⟩ := run_cons hr
      refine ih os a1 s ?_ hrn (fun o ho => hall o (by simp [ho]))
      cases op with
      | next =>
        obtain ⟨r, hnx, rfl⟩ := step_next hst
        cases r with
        | ok y =>
          obtain ⟨_, ⟨_, _, _, _, _, rfl⟩ | ⟨_, _, _, _, _, _, rfl⟩⟩ := next_ok hnx
          · right; simp
          · right; simp
        | error e =>
          have he := hall (.raised e) (by simp [batchOut]) e rfl
          subst he
          unfold next at hnx
          by_cases ho : episodeOver sch a.sched
          · rw [if_pos ho] at hnx
            simp only [Option.some.injEq, Prod.mk.injEq] at hnx
            rw [← hnx.2]; exact ha
          · rw [if_neg ho] at hnx
            exfalso
            unfold getNext at hnx
            have hfetch : ∀ s2 : St S F O, getNext.fetch sch g cfg a ≠ some (.error .episodeEnd, s2) := by
              intro s2 hf
              unfold getNext.fetch at hf
              cases hg : sch.getBatch cfg.ffpb a.sched with
              | none => rw [hg] at hf; simp at hf
              | some q =>
                obtain ⟨r, sc⟩ := q
                rw [hg] at hf
                cases r with
                | error e =>
                  simp only [Option.some.injEq, Prod.mk.injEq, Except.error.injEq] at hf
                  rw [hf.1] at hg
                  exact ho (hend _ _ _ hg)
                | ok b =>
                  simp only [produce] at hf
                  repeat' split at hf
                  all_goals simp at hf
            have hres : getNext.fetch sch g cfg a = some (.error .episodeEnd, a1) := by
              cases hcur : a.cur with
              | none =>
                simp only [hcur] at hnx
                cases hf : getNext.fetch sch g cfg a with
                | none => rw [hf] at hnx; simp at hnx
                | some q =>
                  obtain ⟨r, sc⟩ := q
                  rw [hf] at hnx
                  cases r <;> simp at hnx
                  rw [hnx.1, hnx.2]
              | some fl =>
                have hge : ¬ a.generated < cfg.bpfb := by
                  rcases ha with ha | ha
                  · rw [hcur] at ha; simp at ha
                  · omega
                simp only [hcur, if_neg hge] at hnx
                cases hf : getNext.fetch sch g cfg a with
                | none => rw [hf] at hnx; simp at hnx
                | some q =>
                  obtain ⟨r, sc⟩ := q
                  rw [hf] at hnx
                  cases r <;> simp at hnx
                  rw [hnx.1, hnx.2]
            exact hfetch _ hres
      | reset b =>
        simp only [step, Option.some.injEq, Prod.mk.injEq] at hst
        rw [← hst.2]
        left
        unfold reset
        cases b with
        | false => rfl
        | true =>
          simp only [if_true]
          cases hrs : sch.reset (resetSelf cfg a).sched <;> rfl
      | nextEpisode =>
        simp only [step, Option.some.injEq, Prod.mk.injEq] at hst
        rw [← hst.2]
        unfold nextEpisode
        cases he : sch.episodic with
        | none => exact ha
        | some e =>
          cases hrs : e.2 a.sched with
          | ok sc => simpa [hrs] using ha
          | error y => simpa [hrs] using ha
  have hs := main ops outs _ s (Or.inl rfl) hr hall
  obtain ⟨_, ⟨fl, hcur, hgen, _⟩ | ⟨_, b, sc, hb, hdv, rfl, rfl⟩⟩ := next_ok hx
  · rcases hs with h0 | h0
    · rw [hcur] at h0; simp at h0
    · omega
  · exact ⟨b, _, hb, MadeFrom.of_images g cfg hc _ b (by rw [hfull _ _ _ _ hb]; exact hc.ffpb) hdv _⟩

/-- C34 fails when episodes come through a prefetching scheduler: with two image batches per flow batch the first image
batch of the second episode is made from the flow fields of the first episode. -/
theorem C34_refuted : ∃ cfg, Cfg.make 2 1 false 2 2 0 = .ok cfg ∧
    (run demoEpisodes demoGen cfg [.next, .next, .nextEpisode, .next] (init cfg (0, 0))).map (fun q => q.1.map (fun o => match o with
      | .batch x => Except.ok x.flows | .raised e => .error e | .done => .ok [])) =
    some [.ok [0, 1], .error .episodeEnd, .ok [], .ok [0, 1]] := ⟨_, rfl, by decide⟩

/-- C36 with any number of devices: in every image batch the constructor's configuration leads to, the image and the
reported flow field with number `i` come from the same flow field `flowOf ... i` of the flow batch, and with one device that
number is `i mod n`. Missing: with several devices the number is not `i mod n` (`C36_refuted`). -/
theorem C36_image_belongs_to_flow_partial (g : Gen F O I) (b : Int) (nd : Nat) (ep : Bool) (bpfb ffpb seed : Int) (cfg : Cfg)
    (h : Cfg.make b nd ep bpfb ffpb seed = .ok cfg) (k : KeyTerm) (fb : FlowBatch F) (x : OutBatch O I)
    (hx : MadeFrom g cfg k fb x) (i : Nat) (hi : i < cfg.batchSize) :
    ∃ j f, j < fb.flows.length ∧ fb.flows[j]? = some f ∧ (nd = 1 → j = i % fb.flows.length) ∧
      x.flows[i]? = some (g.adapt f).1 ∧ ∃ key i', x.images[i]? = some (g.render key (cfg.batchSize / nd) i' (g.adapt f).2) := by
  obtain ⟨_, _, _, _, _, _, rfl⟩ := Cfg.make_ok h
  obtain ⟨_, _, _, _, hm⟩ := hx
  obtain ⟨f, h1, h2, h3⟩ := hm i hi
  refine ⟨_, f, (List.getElem?_eq_some_iff.mp h1).1, h1, ?_, h2, _, _, h3⟩
  rintro rfl
  simp only [flowOf, Nat.div_one]
  rw [Nat.div_eq_of_lt hi, Nat.mod_eq_of_lt hi]
  omega

/-- C36 with two devices: eight images from four flow fields; image 2 uses flow field 0 instead of 2. -/
theorem C36_refuted : ∃ cfg, Cfg.make 8 2 false 1 4 0 = .ok cfg ∧
    (next demoSched demoGen cfg (init cfg 0)).map (fun q => q.1.map (fun x => (x.images.map (·.1), x.flows))) =
    some (.ok ([100, 101, 100, 101, 102, 103, 102, 103], [0, 1, 0, 1, 2, 3, 2, 3])) := ⟨_, rfl, by decide⟩

/-! ## C37 -/

/-- How many of `b` images use flow field `f`. -/
def uses (b d n f : Nat) : Nat := (List.range b).countP (fun i => decide (flowOf b d n i = f))

/-- C37: when `b` images and `n` flow fields are spread evenly over `d` devices, every flow field is used `⌊b/n⌋` or `⌈b/n⌉`
times; with one device the first `b mod n` are used once more than the others. Missing: with several devices it is the
first ones of each device (`C37_refuted`). -/
theorem C37_used_evenly_partial (b d n : Nat) (hd : 0 < d) (hb : d ∣ b) (hn : d ∣ n) (hn0 : 0 < n) (f : Nat) (hf : f < n) :
    b / n ≤ uses b d n f ∧ uses b d n f ≤ (b + n - 1) / n ∧
    (uses b d n f = b / n + if f % (n / d) < (b / d) % (n / d) then 1 else 0) ∧
    (d = 1 → uses b 1 n f = b / n + if f < b % n then 1 else 0) := by
  obtain ⟨b', rfl⟩ := hb
  obtain ⟨m, rfl⟩ := hn
  have hm : 0 < m := Nat.pos_of_mul_pos_left hn0
  have hmain : uses (d * b') d (d * m) f = d * b' / (d * m) + if f % m < b' % m then 1 else 0 := by
    unfold uses flowOf
    simp only [Nat.mul_div_cancel_left _ hd]
    have hr := Nat.mod_lt f hm
    have hf' : f = (f / m) * m + f % m := by
      have := Nat.div_add_mod f m
      rw [Nat.mul_comm] at this
      exact this.symm
    have := countP_blocks b' m (f / m) (f % m) hr d
    rw [Nat.mul_comm d b'] at *
    rw [Nat.mul_comm b' d] at *
    rw [← hf', if_pos ((Nat.div_lt_iff_lt_mul hm).mpr hf)] at this
    rw [this, Nat.mul_div_mul_left _ _ hd]
  refine ⟨by rw [hmain]; exact Nat.le_add_right _ _, ?_, ?_, ?_⟩
  · rw [hmain]
    by_cases h : f % m < b' % m
    · rw [if_pos h]
      rw [Nat.le_div_iff_mul_le hn0, Nat.add_mul, Nat.one_mul]
      have h1 : d * b' / (d * m) = b' / m := Nat.mul_div_mul_left _ _ hd
      have h2 := Nat.div_add_mod b' m
      have h3 : d * b' / (d * m) * (d * m) + d * (b' % m) = d * b' := by
        rw [h1]
        calc b' / m * (d * m) + d * (b' % m) = d * (m * (b' / m) + b' % m) := by ring
          _ = d * b' := by rw [h2]
      have h4 : 1 ≤ d * (b' % m) := Nat.mul_pos hd (by omega)
      omega
    · rw [if_neg h, Nat.add_zero]
      apply Nat.div_le_div_right
      omega
  · rw [Nat.mul_div_cancel_left _ hd, Nat.mul_div_cancel_left _ hd]
    exact hmain
  · rintro rfl
    rw [hmain]
    simp only [Nat.one_mul] at *
    rw [Nat.mod_eq_of_lt hf]

/-- Seven images from three flow fields on one device. -/
example : (List.range 3).map (uses 7 1 3) = [3, 2, 2] := by decide

/-- C37 with two devices: six images from four flow fields; the additional uses go to flow fields 0 and 2, not 0 and 1. -/
theorem C37_refuted : (List.range 4).map (uses 6 2 4) = [2, 1, 2, 1] ∧ 6 % 4 = 2 := by decide

/-! ## C35 -/

/-- C35 fails for the synthetic sampler whenever it has delivered anything: after the `StopIteration` of a scheduler
without episodes the very next call returns a batch again, with the flow fields of the last batch. -/
theorem C35_refuted (sch : ISched S (FlowBatch F)) (hpl : sch.episodic = none) (g : Gen F O I) (cfg : Cfg) (hk : 0 < cfg.bpfb)
    (s s' : St S F O) (fl : List F) (hcur : s.cur = some fl) (hdv : fl.length % cfg.ndevices = 0)
    (h : next sch g cfg s = some (.error .stopIteration, s')) :
    ∃ x s'', next sch g cfg s' = some (.ok x, s'') ∧ x.flows = s.outFlows := by
  have hover : ∀ t, episodeOver sch t = false := by intro t; simp [episodeOver, hpl]
  obtain ⟨sc, _, rfl⟩ := getNext_error (next_error h (hover _)) (by simp)
  have hn : ¬ fl.length % cfg.ndevices ≠ 0 := by omega
  unfold next
  rw [hover]
  simp only [Bool.false_eq_true, if_false, getNext, hcur, if_pos hk, produce, if_neg hn]
  exact ⟨_, _, rfl, rfl⟩

/-- The situation of `C35_refuted`: four flow batches are asked of a scheduler that has three. -/
example : ∃ cfg, Cfg.make 2 1 false 1 2 0 = .ok cfg ∧
    (run demoSched demoGen cfg [.next, .next, .next, .next, .next] (init cfg 0)).map (fun q => q.1.map (fun o => match o with
      | .batch x => Except.ok x.flows | .raised e => .error e | .done => .ok [])) =
    some [.ok [0, 1], .ok [10, 11], .ok [20, 21], .error .stopIteration, .ok [20, 21]] := ⟨_, rfl, by decide⟩

/-- C35 for the real-image sampler over a base scheduler that does not loop: once `next` has raised `StopIteration`, it
raises `StopIteration` on every further call. Missing: the synthetic sampler (`C35_refuted`). -/
theorem C35_real_stays_finished_partial {V D K : Type} (zero : V) (w : Base.World V D K) (bcfg : Base.Cfg)
    (hloop : bcfg.loop = false) (fuel n : Nat) (hf : 0 < fuel) (hn : 0 < n) (s s' : Base.St D K)
    (h : realNext (ofPlain (Base.sched zero w bcfg fuel)) n s = some (.error .stopIteration, s')) (m : Nat) :
    realRun (ofPlain (Base.sched zero w bcfg fuel)) n m s' = some (List.replicate m (.error .stopIteration), s') := by
  have hg : Base.getBatch zero w bcfg fuel n s = some (.error .stopIteration, s') := by
    simp only [realNext, episodeOver, ofPlain, Bool.false_eq_true, if_false, realGetNext, Base.sched] at h
    cases hb : Base.getBatch zero w bcfg fuel n s with
    | none => rw [hb] at h; simp at h
    | some q =>
      obtain ⟨r, sc⟩ := q
      rw [hb] at h
      cases r with
      | ok b => simp at h
      | error e => simpa using h
  have hs : Base.getBatch zero w bcfg fuel n s' = some (.error .stopIteration, s') := by
    have := Base.C03_exhaustion_permanent zero w bcfg hloop fuel n hn s s' _ hg (Or.inl rfl) [n] fuel hf
    simp only [Base.runBatches] at this
    cases hb : Base.getBatch zero w bcfg fuel n s' with
    | none => rw [hb] at this; simp at this
    | some q =>
      rw [hb] at this
      simp only [List.map_cons, List.map_nil, Option.some.injEq, Prod.mk.injEq, List.cons.injEq, and_true] at this
      obtain ⟨h1, h2⟩ := this
      rw [← h1, ← h2]
  induction m with
  | zero => rfl
  | succ m ih =>
    have : realNext (ofPlain (Base.sched zero w bcfg fuel)) n s' = some (.error .stopIteration, s') := by
      simp [realNext, episodeOver, ofPlain, realGetNext, Base.sched, hs]
    simp [realRun, this, ih, List.replicate_succ]

/-- The situation of `C35_real_stays_finished_partial`. -/
example : ∃ s s', realNext (ofPlain (Base.sched 0 Base.Demo.world ⟨false, false⟩ 7)) 1 s = some (.error .stopIteration, s') ∧
    s.fileList = ["a"] := ⟨⟨["a"], 1, none, 0, .seed 0⟩, _, rfl, rfl⟩

/-! ## C33 -/

/-- C33: with an episodic scheduler with episodes of `L` steps, in every history of calls in which nothing but `EpisodeEnd`
is raised by `next`, the `k`-th batch since the episode began is returned only for `k ≤ L`, carries `batch_size` flags that
are all `true` iff `k = L` and all `false` otherwise, and `EpisodeEnd` is raised iff the episode is over (`DoneOK`). -/
theorem C33_done_flags {S : Type} (sch : Sched S (FlowBatch F)) (rng : Episodic.Rng Key) (ecfg : Episodic.Cfg)
    (hin : ∀ n s s', sch.getBatch n s ≠ some (.error .episodeEnd, s')) (g : Gen F O I)
    (b : Int) (nd : Nat) (bpfb ffpb seed : Int) (cfg : Cfg) (h : Cfg.make b nd true bpfb ffpb seed = .ok cfg)
    (e0 : Episodic.St S Key) (h0 : e0.t = 0) (ops : List Op) (outs : List (Out (OutBatch O I))) (s : St (Episodic.St S Key) F O)
    (hr : run (ofEpisodic sch rng ecfg) g cfg ops (init cfg e0) = some (outs, s))
    (hall : ∀ o ∈ outs, ∀ e, o = .raised e → e = .episodeEnd) :
    DoneOK ecfg.episodeLength cfg.batchSize 0 (ops.zip outs) := by
  have hk : cfg.bpfb = 1 := by
    obtain ⟨_, _, _, _, _, _, rfl⟩ := Cfg.make_ok h
    by_cases hb : bpfb = 1
    · subst hb; rfl
    · simp [hb]
  have hover : ∀ e : Episodic.St S Key, e.t ≤ ecfg.episodeLength →
      episodeOver (ofEpisodic sch rng ecfg) e = decide (e.t = ecfg.episodeLength) := by
    intro e he
    simp only [episodeOver, ofEpisodic, Episodic.stepsRemaining]
    by_cases h1 : e.t = ecfg.episodeLength
    · simp [h1]
    · have : ¬ ((ecfg.episodeLength : Int) - e.t = 0) := by omega
      simp [h1, this]
  have hdone : ∀ e : Episodic.St S Key, e.t ≤ ecfg.episodeLength →
      makeDone (ofEpisodic sch rng ecfg) cfg.batchSize e =
        some (List.replicate cfg.batchSize (decide (e.t = ecfg.episodeLength))) := by
    intro e he
    simp only [makeDone, ofEpisodic, Option.map_some, Episodic.stepsRemaining]
    by_cases h1 : e.t = ecfg.episodeLength
    · simp [h1]
    · have : ¬ ((ecfg.episodeLength : Int) - e.t = 0) := by omega
      simp [h1, this]
  have hget : ∀ (e e' : Episodic.St S Key) n x, e.t ≤ ecfg.episodeLength → Episodic.getBatch sch ecfg n e = some (.ok x, e') →
      e'.t = e.t + 1 ∧ e.t < ecfg.episodeLength := by
    intro e e' n x he hg
    unfold Episodic.getBatch at hg
    by_cases h1 : n ≠ ecfg.batchSize
    · rw [if_pos h1] at hg; simp at hg
    rw [if_neg h1] at hg
    by_cases h2 : ecfg.episodeLength ≤ e.t
    · rw [if_pos h2] at hg; simp at hg
    rw [if_neg h2] at hg
    cases hi : sch.getBatch n e.inner with
    | none => rw [hi] at hg; simp at hg
    | some q =>
      rw [hi] at hg
      simp only [Option.some.injEq, Prod.mk.injEq] at hg
      exact ⟨by rw [← hg.2], by omega⟩
  have hEE : ∀ (e e' : Episodic.St S Key) n, Episodic.getBatch sch ecfg n e = some (.error .episodeEnd, e') →
      ecfg.episodeLength ≤ e.t := by
    intro e e' n hg
    unfold Episodic.getBatch at hg
    by_cases h1 : n ≠ ecfg.batchSize
    · rw [if_pos h1] at hg; simp at hg
    rw [if_neg h1] at hg
    by_cases h2 : ecfg.episodeLength ≤ e.t
    · exact h2
    rw [if_neg h2] at hg
    cases hi : sch.getBatch n e.inner with
    | none => rw [hi] at hg; simp at hg
    | some q =>
      rw [hi] at hg
      simp only [Option.some.injEq, Prod.mk.injEq] at hg
      exact absurd (show sch.getBatch n e.inner = some (.error .episodeEnd, q.2) by rw [hi, ← hg.1]) (hin _ _ _)
  have hnE : ∀ e e' : Episodic.St S Key, Episodic.nextEpisode sch rng ecfg e = .ok e' → e'.t = 0 := by
    intro e e' hg
    unfold Episodic.nextEpisode at hg
    cases hs : Episodic.sample sch rng ecfg e with
    | error x => rw [hs] at hg; simp at hg
    | ok y =>
      rw [hs] at hg
      simp only [Except.ok.injEq] at hg
      rw [← hg]
  have main : ∀ (ops : List Op) (outs : List (Out (OutBatch O I))) (a : St (Episodic.St S Key) F O) (k : Nat),
      (a.cur = none ∨ 1 ≤ a.generated) → a.sched.t = k → k ≤ ecfg.episodeLength →
      run (ofEpisodic sch rng ecfg) g cfg ops a = some (outs, s) → (∀ o ∈ outs, ∀ e, o = .raised e → e = .episodeEnd) →
      DoneOK ecfg.episodeLength cfg.batchSize k (ops.zip outs) := by
    intro ops
    induction ops with
    | nil => intro outs a k _ _ _ _ _; simp [DoneOK]
    | cons op ops ih =>
      intro outs a k hfr hkt hkl hr hall
      obtain ⟨o, a1, os, hst, hrn, rfl⟩ := run_cons hr
      have hall' : ∀ o ∈ os, ∀ e, o = .raised e → e = .episodeEnd := fun o ho => hall o (by simp [ho])
      rw [List.zip_cons_cons]
      cases op with
      | next =>
        obtain ⟨r, hnx, rfl⟩ := step_next hst
        cases r with
        | ok y =>
          obtain ⟨_, ⟨fl, hcur, hgen, _⟩ | ⟨_, fb, sc, hb, _, rfl, rfl⟩⟩ := next_ok hnx
          · exfalso
            rcases hfr with h0 | h0
            · rw [hcur] at h0; simp at h0
            · omega
          · obtain ⟨h1, h2⟩ := hget _ _ _ _ (by omega) hb
            simp only [batchOut, DoneOK]
            refine ⟨by omega, ?_, ih os _ (k + 1) (Or.inr (by simp)) (by simp only; omega) (by omega) hrn hall'⟩
            rw [hdone sc (by omega), h1, hkt]
        | error e =>
          have he := hall (.raised e) (by simp [batchOut]) e rfl
          subst he
          unfold next at hnx
          rw [hover _ (by omega)] at hnx
          by_cases ho : a.sched.t = ecfg.episodeLength
          · simp only [ho, decide_true, if_true, Option.some.injEq, Prod.mk.injEq] at hnx
            simp only [batchOut, DoneOK]
            refine ⟨by simp; omega, ih os a1 k ?_ ?_ hkl hrn hall'⟩
            · rw [← hnx.2]; exact hfr
            · rw [← hnx.2]; exact hkt
          · exfalso
            simp only [ho, decide_false, Bool.false_eq_true, if_false] at hnx
            cases hgn : getNext (ofEpisodic sch rng ecfg) g cfg a with
            | none => rw [hgn] at hnx; simp at hnx
            | some q =>
              obtain ⟨r, sc⟩ := q
              rw [hgn] at hnx
              cases r with
              | ok y => simp at hnx
              | error e' =>
                simp only [Option.some.injEq, Prod.mk.injEq, Except.error.injEq] at hnx
                obtain ⟨rfl, _⟩ := hnx
                obtain ⟨sc', hb, _⟩ := getNext_error hgn (by simp)
                have := hEE _ _ _ hb
                omega
      | reset b =>
        simp only [step, Option.some.injEq, Prod.mk.injEq] at hst
        cases b with
        | false =>
          obtain ⟨rfl, rfl⟩ := hst
          exact ih os (resetSelf cfg a) k (Or.inl rfl) hkt hkl hrn hall'
        | true =>
          cases hrs : (ofEpisodic sch rng ecfg).reset a.sched with
          | error x =>
            rw [reset_error hrs] at hst
            obtain ⟨rfl, rfl⟩ := hst
            exact ih os (resetSelf cfg a) k (Or.inl rfl) hkt hkl hrn hall'
          | ok sc =>
            rw [reset_ok hrs] at hst
            obtain ⟨rfl, rfl⟩ := hst
            exact ih os { resetSelf cfg a with sched := sc } 0 (Or.inl rfl) (hnE a.sched sc hrs) (by omega) hrn hall'
      | nextEpisode =>
        simp only [step, Option.some.injEq, Prod.mk.injEq] at hst
        cases hrs : Episodic.nextEpisode sch rng ecfg a.sched with
        | error x =>
          rw [nextEpisode_error rfl hrs] at hst
          obtain ⟨rfl, rfl⟩ := hst
          exact ih os _ k hfr hkt hkl hrn hall'
        | ok sc =>
          rw [nextEpisode_ok rfl hrs] at hst
          obtain ⟨rfl, rfl⟩ := hst
          exact ih os { a with sched := sc } 0 hfr (hnE a.sched sc hrs) (by omega) hrn hall'
  exact main ops outs _ 0 (Or.inl rfl) h0 (by omega) hr hall

/-- A wrapped scheduler that counts its batches, for episodes. -/
def demoInner : Sched Nat (FlowBatch Nat) where
  getBatch n s := some (.ok ⟨(List.range n).map (· + 10 * s), none, none⟩, s + 1)
  reset s := s
  fileList _ := []
  setFileList _ s := s

/-- Episodes of two steps: the flags of the two batches, the refusal, and the next episode. -/
example : ∃ cfg, Cfg.make 2 1 true 5 2 0 = .ok cfg ∧
    (run (ofEpisodic demoInner ⟨fun k => (k, k), fun _ _ b => List.replicate b 0⟩ ⟨2, 2, [("d", ["a", "b"])], [("d", 0)]⟩) demoGen cfg
      [.next, .next, .next, .nextEpisode, .next] (init cfg ⟨0, 0, ()⟩)).map (fun q => q.1.map (fun o => match o with
      | .batch x => Except.ok x.done | .raised e => .error e | .done => .ok none)) =
    some [.ok (some [false, false]), .ok (some [true, true]), .error .episodeEnd, .ok none, .ok (some [false, false])] :=
  ⟨_, rfl, by decide⟩

/-- C33, second half, for every scheduler with episodes: a batch is flagged iff the very next call finds the episode over and
raises `EpisodeEnd` without asking the scheduler. -/
theorem C33_flag_announces_end (sch : ISched S (FlowBatch F)) (e : (S → Int) × (S → Except Exc S)) (he : sch.episodic = some e)
    (g : Gen F O I) (cfg : Cfg) (s s' : St S F O) (x : OutBatch O I) (h : next sch g cfg s = some (.ok x, s')) :
    ∃ d : Bool, x.done = some (List.replicate cfg.batchSize d) ∧ (d = true ↔ episodeOver sch s'.sched = true) ∧
      (d = true → next sch g cfg s' = some (.error .episodeEnd, s')) := by
  have hd : x.done = makeDone sch cfg.batchSize s'.sched := by
    obtain ⟨_, ⟨fl, _, _, _, rfl, rfl⟩ | ⟨_, b, sc, _, _, rfl, rfl⟩⟩ := next_ok h <;> rfl
  refine ⟨decide (e.1 s'.sched = 0), by rw [hd, makeDone, he]; rfl, ?_, ?_⟩
  · simp [episodeOver, he]
  · intro hd
    have : episodeOver sch s'.sched = true := by simpa [episodeOver, he] using hd
    simp [next, this]

/-- C33, third part, for every history over an episodic scheduler, whatever was raised in it: `next` raises `EpisodeEnd` iff no
steps of the episode remain, so a batch is flagged (`C33_flag_announces_end`) iff the next call raises `EpisodeEnd`. -/
theorem C33_episodeEnd_iff_over {S : Type} (sch : Sched S (FlowBatch F)) (rng : Episodic.Rng Key) (ecfg : Episodic.Cfg)
    (hin : ∀ n s s', sch.getBatch n s ≠ some (.error .episodeEnd, s')) (g : Gen F O I) (cfg : Cfg)
    (e0 : Episodic.St S Key) (h0 : e0.t = 0) (ops : List Op) (outs : List (Out (OutBatch O I))) (s : St (Episodic.St S Key) F O)
    (hr : run (ofEpisodic sch rng ecfg) g cfg ops (init cfg e0) = some (outs, s)) :
    (∃ s', next (ofEpisodic sch rng ecfg) g cfg s = some (.error .episodeEnd, s')) ↔ Episodic.stepsRemaining ecfg s.sched = 0 := by
  have hget : ∀ (e e' : Episodic.St S Key) n r, e.t ≤ ecfg.episodeLength → Episodic.getBatch sch ecfg n e = some (r, e') →
      e'.t ≤ ecfg.episodeLength ∧ (r = .error .episodeEnd → ecfg.episodeLength ≤ e.t) := by
    intro e e' n r he hg
    unfold Episodic.getBatch at hg
    by_cases h1 : n ≠ ecfg.batchSize
    · rw [if_pos h1] at hg
      simp only [Option.some.injEq, Prod.mk.injEq] at hg
      obtain ⟨rfl, rfl⟩ := hg
      exact ⟨he, by simp⟩
    rw [if_neg h1] at hg
    by_cases h2 : ecfg.episodeLength ≤ e.t
    · rw [if_pos h2] at hg
      simp only [Option.some.injEq, Prod.mk.injEq] at hg
      obtain ⟨rfl, rfl⟩ := hg
      exact ⟨he, fun _ => h2⟩
    rw [if_neg h2] at hg
    cases hi : sch.getBatch n e.inner with
    | none => rw [hi] at hg; simp at hg
    | some q =>
      rw [hi] at hg
      simp only [Option.some.injEq, Prod.mk.injEq] at hg
      refine ⟨by rw [← hg.2]; simp only; omega, fun hx => ?_⟩
      exact absurd (show sch.getBatch n e.inner = some (.error .episodeEnd, q.2) by rw [hi, ← hx, ← hg.1]) (hin _ _ _)
  have hnE : ∀ e e' : Episodic.St S Key, Episodic.nextEpisode sch rng ecfg e = .ok e' → e'.t = 0 := by
    intro e e' hg
    unfold Episodic.nextEpisode at hg
    cases hs : Episodic.sample sch rng ecfg e with
    | error x => rw [hs] at hg; simp at hg
    | ok y =>
      rw [hs] at hg
      simp only [Except.ok.injEq] at hg
      rw [← hg]
  have hgn : ∀ (a a1 : St (Episodic.St S Key) F O) r, a.sched.t ≤ ecfg.episodeLength →
      getNext (ofEpisodic sch rng ecfg) g cfg a = some (r, a1) → a1.sched.t ≤ ecfg.episodeLength := by
    intro a a1 r ha hg
    have hprod : ∀ fl (b : St (Episodic.St S Key) F O), (produce g cfg fl b).2.sched = b.sched := by
      intro fl b
      unfold produce
      simp only
      split <;> rfl
    have hf : getNext.fetch (ofEpisodic sch rng ecfg) g cfg a = some (r, a1) → a1.sched.t ≤ ecfg.episodeLength := by
      intro hf
      unfold getNext.fetch at hf
      cases hb : (ofEpisodic sch rng ecfg).getBatch cfg.ffpb a.sched with
      | none => rw [hb] at hf; simp at hf
      | some q =>
        obtain ⟨r', sc⟩ := q
        have hle := (hget _ _ _ _ ha hb).1
        rw [hb] at hf
        cases r' with
        | error e =>
          simp only [Option.some.injEq, Prod.mk.injEq] at hf
          rw [← hf.2]; exact hle
        | ok b =>
          simp only at hf
          by_cases hl : b.flows.length % cfg.ndevices ≠ 0
          · rw [if_pos hl] at hf
            simp only [Option.some.injEq, Prod.mk.injEq] at hf
            rw [← hf.2]; exact hle
          · rw [if_neg hl] at hf
            have h2 := congrArg (fun q => q.map (fun p => p.2.sched)) hf
            simp only [Option.map_some, Option.some.injEq, hprod] at h2
            rw [← h2]; exact hle
    unfold getNext at hg
    cases hcur : a.cur with
    | none => simp only [hcur] at hg; exact hf hg
    | some fl =>
      simp only [hcur] at hg
      by_cases hgen : a.generated < cfg.bpfb
      · simp only [if_pos hgen] at hg
        have h2 := congrArg (fun q => q.map (fun p => p.2.sched)) hg
        simp only [Option.map_some, Option.some.injEq, hprod] at h2
        rw [← h2]; exact ha
      · simp only [if_neg hgen] at hg
        exact hf hg
  have main : ∀ (ops : List Op) (outs : List (Out (OutBatch O I))) (a : St (Episodic.St S Key) F O),
      a.sched.t ≤ ecfg.episodeLength → run (ofEpisodic sch rng ecfg) g cfg ops a = some (outs, s) →
      s.sched.t ≤ ecfg.episodeLength := by
    intro ops
    induction ops with
    | nil =>
      intro outs a ha hr
      simp only [run, Option.some.injEq, Prod.mk.injEq] at hr
      rw [← hr.2]; exact ha
    | cons op ops ih =>
      intro outs a ha hr
      obtain ⟨o, a1, os, hst, hrn, rfl⟩ := run_cons hr
      refine ih os a1 ?_ hrn
      cases op with
      | next =>
        obtain ⟨r, hnx, rfl⟩ := step_next hst
        unfold next at hnx
        by_cases ho : episodeOver (ofEpisodic sch rng ecfg) a.sched
        · rw [if_pos ho] at hnx
          simp only [Option.some.injEq, Prod.mk.injEq] at hnx
          rw [← hnx.2]; exact ha
        · rw [if_neg ho] at hnx
          cases hg : getNext (ofEpisodic sch rng ecfg) g cfg a with
          | none => rw [hg] at hnx; simp at hnx
          | some q =>
            obtain ⟨r', sc⟩ := q
            have hle := hgn _ _ _ ha hg
            rw [hg] at hnx
            cases r' <;> simp only [Option.some.injEq, Prod.mk.injEq] at hnx <;> (rw [← hnx.2]; exact hle)
      | reset b =>
        simp only [step, Option.some.injEq, Prod.mk.injEq] at hst
        cases b with
        | false => rw [← hst.2]; exact ha
        | true =>
          cases hrs : (ofEpisodic sch rng ecfg).reset a.sched with
          | error x => rw [reset_error hrs] at hst; rw [← hst.2]; exact ha
          | ok sc =>
            rw [reset_ok hrs] at hst
            rw [← hst.2]
            have := hnE a.sched sc hrs
            simp only; omega
      | nextEpisode =>
        simp only [step, Option.some.injEq, Prod.mk.injEq] at hst
        cases hrs : Episodic.nextEpisode sch rng ecfg a.sched with
        | error x => rw [nextEpisode_error rfl hrs] at hst; rw [← hst.2]; exact ha
        | ok sc =>
          rw [nextEpisode_ok rfl hrs] at hst
          rw [← hst.2]
          have := hnE a.sched sc hrs
          simp only; omega
  have hs := main ops outs _ (by simp [init, h0]) hr
  have hov : episodeOver (ofEpisodic sch rng ecfg) s.sched = decide (Episodic.stepsRemaining ecfg s.sched = 0) := rfl
  constructor
  · rintro ⟨s', h⟩
    by_cases ho : Episodic.stepsRemaining ecfg s.sched = 0
    · exact ho
    · exfalso
      have hov' : episodeOver (ofEpisodic sch rng ecfg) s.sched = false := by rw [hov]; simpa using ho
      obtain ⟨sc, hb, _⟩ := getNext_error (next_error h hov') (by simp)
      have h1 := (hget _ _ _ _ hs hb).2 rfl
      simp only [Episodic.stepsRemaining] at ho
      omega
  · intro ho
    refine ⟨s, ?_⟩
    unfold next
    rw [hov, decide_eq_true ho]
    rfl

/-! ## C39 -/

/-- C39: whatever happened before, after `reset()` the sampler shows, for every further sequence of calls, exactly what a
newly constructed one shows, provided the scheduler's own `reset()` brings it into a state that behaves like its initial
state. -/
theorem C39_reset_reproducible (sch : ISched S (FlowBatch F)) (g : Gen F O I) (cfg : Cfg) (s0 : S) (s : St S F O) (sc : S)
    (hreset : sch.reset s.sched = .ok sc) (hsame : SameBehaviour sch sc s0) (ops : List Op) :
    (run sch g cfg (.reset true :: ops) s).map (·.1) = (run sch g cfg ops (init cfg s0)).map (fun q => .done :: q.1) := by
  obtain ⟨R, hR, hk⟩ := hsame
  obtain ⟨s1, hs1⟩ : ∃ s1 : St S F O, s1 = { resetSelf cfg s with sched := sc } := ⟨_, rfl⟩
  have ha : Alike cfg R s1 (init cfg s0) := by
    subst hs1
    exact ⟨hR, rfl, rfl, rfl, by simp [resetSelf]⟩
  have hst : step sch g cfg s (.reset true) = some (.done, s1) := by
    simp only [step, reset_ok hreset, unitOut, hs1]
  have hrun : run sch g cfg (.reset true :: ops) s = (run sch g cfg ops s1).map (fun q => (.done :: q.1, q.2)) := by
    rw [run, hst]
    simp only
    cases run sch g cfg ops s1 <;> rfl
  have := run_alike (sch := sch) hk g ops _ _ ha
  rw [hrun]
  cases h1 : run sch g cfg ops s1 with
  | none =>
    rw [h1] at this
    cases h2 : run sch g cfg ops (init cfg s0) with
    | none => rfl
    | some q => rw [h2] at this; simp at this
  | some q =>
    rw [h1] at this
    cases h2 : run sch g cfg ops (init cfg s0) with
    | none => rw [h2] at this; simp at this
    | some q' =>
      rw [h2] at this
      simp only [Option.map_some, Option.some.injEq] at this ⊢
      rw [this]

/-- The scheduler of the demonstration restarts. -/
example : SameBehaviour demoSched 0 0 := by
  refine ⟨Eq, rfl, ?_⟩
  rintro s t rfl
  refine ⟨fun _ => rfl, ?_, ?_, Or.inr ⟨_, _, rfl, rfl, rfl⟩⟩
  · intro n r r' s' t' h h'
    rw [h] at h'
    simp only [Option.some.injEq, Prod.mk.injEq] at h'
    exact h'.2
  · intro e h
    simp [demoSched] at h

/-- A run that is reset in the middle of a flow batch. -/
example : ∃ cfg, Cfg.make 3 1 false 2 2 0 = .ok cfg ∧
    (run demoSched demoGen cfg [.next, .next, .next, .reset true, .next, .next] (init cfg 0)).map (fun q => q.1.map (fun o => match o with
      | .batch x => x.flows | _ => [])) =
    some [[0, 1, 0], [0, 1, 0], [10, 11, 10], [], [0, 1, 0], [0, 1, 0]] := ⟨_, rfl, by decide⟩

/-! ## C40 -/

/-- C40: for any number `n` of image batches, `d` devices and `b` images per device, the keys consumed by all draws and
splits of a run are pairwise different. -/
theorem C40_no_key_twice (seed n d b : Nat) : (keysOf (runUses d b n (.seed seed))).Nodup :=
  runUses_nodup d b n _

/-- C40: a key that a draw has used is used up: no key from which anything else in the run is drawn or split comes from it. -/
theorem C40_draws_use_keys_up (seed n d b : Nat) (u v : Use) (k k' : KeyTerm) (hk : (u, k) ∈ runUses d b n (.seed seed))
    (hk' : (v, k') ∈ runUses d b n (.seed seed)) (hu : u ≠ .split) (hd : Derived k k') : (u, k) = (v, k') :=
  runUses_spent d b n _ (u, k) hk hu (v, k') hk' (.of_derived hd)

/-- Keys do come from one another, through splits. -/
example : ∃ k k', (.split, k) ∈ runUses 2 3 4 (.seed 0) ∧ (.mask1, k') ∈ runUses 2 3 4 (.seed 0) ∧ Derived k k' ∧ k ≠ k' :=
  ⟨.fold (.sub (.sub (.sub (.seed 0) 2 1) 2 0) 2 0) 0, .sub (.fold (.sub (.sub (.sub (.seed 0) 2 1) 2 0) 2 0) 0) 9 0,
    by decide +kernel, by decide +kernel, .split _ _ .self, by decide⟩

/-- Every kind of draw occurs: 22 uses per image and, per device and batch, the densities. -/
example : (runUses 2 3 4 (.seed 0)).length = 4 * (2 + 2 * (2 + 3 * 22)) := by decide +kernel

/-- The keys that `runUses` lists for batch `t` are derived from the key of the model's state machine: image batch `t` is
made with `batchKey`, whose devices get `sub (batchKey ..) d j`. -/
theorem C40_keys_are_those_of_the_run (seed d b : Nat) : ∀ n t, t < n →
    ∀ j, j < d → ∀ u ∈ deviceUses (.sub (batchKey seed t) d j) b, u ∈ runUses d b n (.seed seed) := by
  have gen : ∀ n t, t < n → ∀ k, ∀ j, j < d → ∀ u ∈ deviceUses (.sub (.sub (Nat.repeat (fun k => .sub k 2 0) t k) 2 1) d j) b,
      u ∈ runUses d b n k := by
    intro n
    induction n with
    | zero => intro t ht; omega
    | succ n ih =>
      intro t ht k j hj u hu
      unfold runUses
      rw [List.mem_append]
      cases t with
      | zero =>
        left
        unfold batchUses
        rw [List.mem_append, List.mem_flatMap]
        exact Or.inr ⟨j, by simpa using hj, hu⟩
      | succ t =>
        right
        refine ih t (by omega) _ j hj u ?_
        have hrep : ∀ t (k : KeyTerm), Nat.repeat (fun k => KeyTerm.sub k 2 0) (t + 1) k =
            Nat.repeat (fun k => KeyTerm.sub k 2 0) t (.sub k 2 0) := by
          intro t
          induction t with
          | zero => intro k; rfl
          | succ t iht =>
            intro k
            have h := iht k
            simp only [Nat.repeat] at h ⊢
            rw [h]
        rwa [hrep] at hu
  intro n t ht j hj u hu
  exact gen n t ht (.seed seed) j hj u hu

/-! ## C41 -/

/-- C41, construction: for a positive batch size `RealImageSampler` accepts a scheduler iff the innermost scheduler
includes images; otherwise it raises `ValueError`. -/
theorem C41_insists_on_images (n : Nest) (b : Int) :
    (realInit n b = .ok b.toNat ∧ 0 < b ∧ Innermost n true) ∨ (realInit n b = .error .valueError ∧ (b ≤ 0 ∨ Innermost n false)) := by
  have h : (unwrap n = .ok () ∧ Innermost n true) ∨ (unwrap n = .error .valueError ∧ Innermost n false) := by
    induction n with
    | base inc =>
      simp only [unwrap, Innermost]
      cases hi : inc.getD false <;> simp
    | episodic n ih => exact ih
    | prefetching n ih => exact ih
  unfold realInit
  by_cases hb : b ≤ 0
  · exact Or.inr ⟨by rw [if_pos hb], Or.inl hb⟩
  · rw [if_neg hb]
    rcases h with ⟨h1, h2⟩ | ⟨h1, h2⟩
    · exact Or.inl ⟨by rw [h1], by omega, h2⟩
    · exact Or.inr ⟨by rw [h1], Or.inr h2⟩

/-- Both cases occur; HDF5 schedulers have no `include_images` at all. -/
example : realInit (.prefetching (.episodic (.base (some true)))) 4 = .ok 4 ∧
    realInit (.prefetching (.base none)) 4 = .error .valueError := ⟨rfl, rfl⟩

/-- C41, batches: as long as the episode is not over, `next` asks the scheduler once for `batch_size` samples and returns its
batch unchanged (flow fields, both images, mask, files), adding nothing but the done flags; an exception of the
scheduler is passed on. -/
theorem C41_batches_unchanged {V : Type} (sch : ISched S (Base.Batch V)) (n : Nat) (s : S) (ho : episodeOver sch s = false) :
    (sch.getBatch n s = none → realNext sch n s = none) ∧
    (∀ e s', sch.getBatch n s = some (.error e, s') → realNext sch n s = some (.error e, s')) ∧
    ∀ b s', sch.getBatch n s = some (.ok b, s') → ∃ x, realNext sch n s = some (.ok x, s') ∧
      x.flow = b.flow ∧ x.images1 = b.images1 ∧ x.images2 = b.images2 ∧ x.mask = b.mask ∧ x.files = b.files ∧
      x.params = none ∧ x.done = makeDone sch n s' := by
  refine ⟨fun h => ?_, fun e s' h => ?_, fun b s' h => ⟨⟨b.flow, b.images1, b.images2, b.mask, b.files, none, makeDone sch n s'⟩,
    ?_, rfl, rfl, rfl, rfl, rfl, rfl, rfl⟩⟩
  all_goals simp [realNext, realGetNext, ho, h]

/-- A batch with its mask passes through. -/
example : ∃ x s', realNext (ofPlain (Base.sched 0 Base.Demo.world ⟨false, false⟩ 7)) 3
    (Base.init Base.Demo.world ⟨false, false⟩ ["a"] (.seed 0)) = some (.ok x, s') ∧ x.mask = [true, true, false] :=
  ⟨_, _, rfl, rfl⟩

end Verif.Sampler
