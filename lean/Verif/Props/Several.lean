import Verif.Model.Several
import Verif.Spec.Several
/-!
# C172: samplers that share a scheduler divide its data among them
-/

namespace Verif.Several
open Verif Verif.Sampler

variable {S F O I : Type}

private theorem produce_withSched (g : Gen F O I) (cfg : Cfg) (flows : List F) (s : St S F O) {S' : Type} (x : S') :
    produce g cfg flows (withSched s x) = ((produce g cfg flows s).1, withSched (produce g cfg flows s).2 x) := by
  unfold produce
  split <;> rfl

private theorem produce_sched (g : Gen F O I) (cfg : Cfg) (flows : List F) (s : St S F O) : (produce g cfg flows s).2.sched = s.sched := by
  unfold produce
  split <;> rfl

private theorem fetch_prepared (sch : ISched S (FlowBatch F)) (g : Gen F O I) (cfg : Cfg) (s s' : St S F O) (o : Except Exc (OutBatch O I))
    (h : getNext.fetch sch g cfg s = some (o, s')) :
    ∃ r, sch.getBatch cfg.ffpb s.sched = some (r, s'.sched) ∧
      ∀ rest, getNext.fetch (prepared (FlowBatch F)) g cfg (withSched s (r :: rest)) = some (o, withSched s' rest) := by
  unfold getNext.fetch at h
  split at h
  · simp at h
  · rename_i e m hb
    simp only [Option.some.injEq, Prod.mk.injEq] at h
    obtain ⟨rfl, rfl⟩ := h
    exact ⟨_, hb, fun rest => rfl⟩
  · rename_i b m hb
    refine ⟨.ok b, ?_, fun rest => ?_⟩
    · rw [hb]
      split at h
      · simp only [Option.some.injEq, Prod.mk.injEq] at h
        rw [← h.2]
      · simp only [Option.some.injEq] at h
        rw [show s' = _ from (congrArg Prod.snd h).symm, produce_sched]
    · unfold getNext.fetch
      simp only [prepared, withSched] at h ⊢
      split at h
      · rename_i hl
        rw [if_pos hl]
        simp only [Option.some.injEq, Prod.mk.injEq] at h ⊢
        obtain ⟨rfl, rfl⟩ := h
        exact ⟨rfl, rfl⟩
      · rename_i hl
        rw [if_neg hl]
        simp only [Option.some.injEq] at h ⊢
        have := produce_withSched g cfg (adaptAll g cfg b.flows).2
          ({ s with generated := 0, sched := m, mask := b.mask, files := b.files, outFlows := (adaptAll g cfg b.flows).1, cur := some (adaptAll g cfg b.flows).2 } : St S F O) rest
        rw [h] at this
        exact this

private theorem getNext_prepared (sch : ISched S (FlowBatch F)) (g : Gen F O I) (cfg : Cfg) (s s' : St S F O) (o : Except Exc (OutBatch O I))
    (h : getNext sch g cfg s = some (o, s')) :
    ∃ ans : List (Except Exc (FlowBatch F)), Answers sch s.sched (ans.map (fun r => (cfg.ffpb, r))) s'.sched ∧
      ∀ rest, getNext (prepared (FlowBatch F)) g cfg (withSched s (ans ++ rest)) = some (o, withSched s' rest) := by
  have hfetch : getNext.fetch sch g cfg s = some (o, s') →
      (∀ x, getNext (prepared (FlowBatch F)) g cfg (withSched s x) = getNext.fetch (prepared (FlowBatch F)) g cfg (withSched s x)) →
      ∃ ans : List (Except Exc (FlowBatch F)), Answers sch s.sched (ans.map (fun r => (cfg.ffpb, r))) s'.sched ∧
      ∀ rest, getNext (prepared (FlowBatch F)) g cfg (withSched s (ans ++ rest)) = some (o, withSched s' rest) := by
    intro hf hx
    obtain ⟨r, hr, hp⟩ := fetch_prepared sch g cfg s s' o hf
    exact ⟨[r], ⟨_, hr, rfl⟩, fun rest => by rw [hx]; exact hp rest⟩
  unfold getNext at h
  split at h
  · rename_i flows hc
    split at h
    · rename_i hlt
      simp only [Option.some.injEq] at h
      refine ⟨[], ?_, fun rest => ?_⟩
      · show s'.sched = s.sched
        rw [show s' = _ from (congrArg Prod.snd h).symm, produce_sched]
      · have h1 : (withSched s ([] ++ rest)).cur = some flows := hc
        have h2 : (withSched s ([] ++ rest)).generated < cfg.bpfb := hlt
        unfold getNext
        rw [h1]
        simp only [if_pos h2, Option.some.injEq]
        rw [produce_withSched, h]
        rfl
    · rename_i hlt
      refine hfetch h (fun x => ?_)
      have h1 : (withSched s x).cur = some flows := hc
      have h2 : ¬ (withSched s x).generated < cfg.bpfb := hlt
      rw [getNext, h1]
      simp only [if_neg h2]
  · rename_i hc
    refine hfetch h (fun x => ?_)
    have h1 : (withSched s x).cur = none := hc
    rw [getNext, h1]

/-- A call on a sampler takes some answers of the scheduler, and shows what it shows on a scheduler that has these answers prepared. -/
private theorem step_prepared (sch : ISched S (FlowBatch F)) (hE : sch.episodic = none) (g : Gen F O I) (cfg : Cfg) (op : Op) (hop : op ≠ .reset true)
    (s s' : St S F O) (o : Out (OutBatch O I)) (h : step sch g cfg s op = some (o, s')) :
    ∃ ans : List (Except Exc (FlowBatch F)), Answers sch s.sched (ans.map (fun r => (cfg.ffpb, r))) s'.sched ∧
      ∀ rest, step (prepared (FlowBatch F)) g cfg (withSched s (ans ++ rest)) op = some (o, withSched s' rest) := by
  cases op with
  | reset b =>
    have : b = false := by cases b <;> simp_all
    subst this
    simp only [step, reset, resetSelf, unitOut, Option.some.injEq, Prod.mk.injEq] at h
    obtain ⟨rfl, rfl⟩ := h
    exact ⟨[], rfl, fun rest => rfl⟩
  | nextEpisode =>
    simp only [step, nextEpisode, hE, unitOut, Option.some.injEq, Prod.mk.injEq] at h
    obtain ⟨rfl, rfl⟩ := h
    exact ⟨[], rfl, fun rest => rfl⟩
  | next =>
    simp only [step, next, episodeOver, makeDone, hE, Bool.false_eq_true, if_false, Option.map_none] at h
    cases hg : getNext sch g cfg s with
    | none => simp [hg] at h
    | some q =>
      obtain ⟨r, m⟩ := q
      obtain ⟨ans, ha, hp⟩ := getNext_prepared sch g cfg s m r hg
      have hP : (prepared (FlowBatch F)).episodic = none := rfl
      rw [hg] at h
      cases r with
      | error e =>
        simp only [Option.map_some, Option.some.injEq, Prod.mk.injEq] at h
        obtain ⟨rfl, rfl⟩ := h
        exact ⟨ans, ha, fun rest => by simp only [step, next, episodeOver, hP, hp rest, Bool.false_eq_true, if_false, Option.map_some]⟩
      | ok b =>
        simp only [Option.map_some, Option.some.injEq, Prod.mk.injEq] at h
        obtain ⟨rfl, rfl⟩ := h
        exact ⟨ans, ha, fun rest => by
          simp only [step, next, episodeOver, makeDone, hP, hp rest, Bool.false_eq_true, if_false, Option.map_some, Option.map_none]⟩

private theorem answers_append (sch : ISched S (FlowBatch F)) (l l' : List (Nat × Except Exc (FlowBatch F))) (s m s' : S) (h : Answers sch s l m) (h' : Answers sch m l' s') :
    Answers sch s (l ++ l') s' := by
  induction l generalizing s with
  | nil => simp only [Answers] at h; subst h; exact h'
  | cons q l ih =>
    obtain ⟨n, r⟩ := q
    obtain ⟨x, hx, hl⟩ := h
    exact ⟨x, hx, ih x hl⟩

private theorem run_parts (sch : ISched S (FlowBatch F)) (hE : sch.episodic = none) (g : Nat → Gen F O I) (cfg : Nat → Cfg) (ops : List (Nat × Op))
    (hops : ∀ q ∈ ops, q.2 ≠ .reset true) (G G' : Group S F O) (outs : List (Nat × Out (OutBatch O I))) (h : grun sch g cfg ops G = some (outs, G')) :
    ∃ log : List (Nat × Except Exc (FlowBatch F)), Answers sch G.shared (log.map (fun q => ((cfg q.1).ffpb, q.2))) G'.shared ∧
      ∀ i, run (prepared (FlowBatch F)) (g i) (cfg i) (ofSampler i ops) (withSched (G.smp i) (ofSampler i log)) = some (ofSampler i outs, withSched (G'.smp i) []) := by
  induction ops generalizing G outs with
  | nil =>
    simp only [grun, Option.some.injEq, Prod.mk.injEq] at h
    obtain ⟨rfl, rfl⟩ := h
    exact ⟨[], rfl, fun i => rfl⟩
  | cons q ops ih =>
    obtain ⟨k, op⟩ := q
    rw [grun, gstep] at h
    cases hs : step sch (g k) (cfg k) (withSched (G.smp k) G.shared) op with
    | none => simp [hs] at h
    | some q =>
      obtain ⟨o, s1⟩ := q
      rw [hs] at h
      simp only at h
      cases hr : grun sch g cfg ops { shared := s1.sched, smp := fun j => if j = k then s1 else G.smp j } with
      | none => simp [hr] at h
      | some q =>
        obtain ⟨os, G2⟩ := q
        simp only [hr, Option.some.injEq, Prod.mk.injEq] at h
        obtain ⟨rfl, rfl⟩ := h
        obtain ⟨log, hlog, hall⟩ := ih (fun q hq => hops q (List.mem_cons_of_mem _ hq)) _ _ hr
        obtain ⟨ans, ha, hp⟩ := step_prepared sch hE (g k) (cfg k) op (hops _ List.mem_cons_self) _ _ _ hs
        refine ⟨ans.map (fun r => (k, r)) ++ log, ?_, fun i => ?_⟩
        · rw [List.map_append, List.map_map]
          exact answers_append sch _ _ _ _ _ ha hlog
        · have h1 := hall i
          by_cases hik : k = i
          · subst hik
            simp only [if_true] at h1
            have hl : ofSampler k (ans.map (fun r => (k, r)) ++ log) = ans ++ ofSampler k log := by
              simp [ofSampler, List.filter_append, List.filter_map, Function.comp_def]
            have ho : ofSampler k ((k, op) :: ops) = op :: ofSampler k ops := by simp [ofSampler]
            have hq : ofSampler k ((k, o) :: os) = o :: ofSampler k os := by simp [ofSampler]
            rw [hl, ho, hq, run]
            have h2 : step (prepared (FlowBatch F)) (g k) (cfg k) (withSched (G.smp k) (ans ++ ofSampler k log)) op = some (o, withSched s1 (ofSampler k log)) := hp _
            rw [h2]
            simp only [h1]
          · have hl : ofSampler i (ans.map (fun r => (k, r)) ++ log) = ofSampler i log := by
              simp [ofSampler, List.filter_append, List.filter_map, Function.comp_def, hik]
            have ho : ofSampler i ((k, op) :: ops) = ofSampler i ops := by simp [ofSampler, hik]
            have hq : ofSampler i ((k, o) :: os) = ofSampler i os := by simp [ofSampler, hik]
            simp only [if_neg (fun hh : i = k => hik hh.symm)] at h1
            rw [hl, ho, hq]
            exact h1

/-- Whatever calls of `next`, `next_episode` and `reset(scheduler_reset=False)` are made on samplers that share a scheduler without episodes, in whatever order: the flow batches that
the scheduler gives, in its order, go to one sampler each, and every sampler shows what it shows alone on a scheduler that gives just its part; nothing of the part is left over. -/
theorem C172_divided (sch : ISched S (FlowBatch F)) (hE : sch.episodic = none) (g : Nat → Gen F O I) (cfg : Nat → Cfg) (s0 : S) (ops : List (Nat × Op))
    (hops : ∀ q ∈ ops, q.2 ≠ .reset true) (outs : List (Nat × Out (OutBatch O I))) (G : Group S F O) (h : grun sch g cfg ops (ginit cfg s0) = some (outs, G)) :
    ∃ log : List (Nat × Except Exc (FlowBatch F)), Answers sch s0 (log.map (fun q => ((cfg q.1).ffpb, q.2))) G.shared ∧
      ∀ i, ∃ s, run (prepared (FlowBatch F)) (g i) (cfg i) (ofSampler i ops) (Sampler.init (cfg i) (ofSampler i log)) = some (ofSampler i outs, s) ∧ s.sched = [] := by
  obtain ⟨log, hl, hall⟩ := run_parts sch hE g cfg ops hops _ _ _ h
  exact ⟨log, hl, fun i => ⟨_, hall i, rfl⟩⟩

/-- `reset` of one sampler starts the shared scheduler again: whoever fetches next, that sampler or another, gets what the scheduler gives after a reset. -/
theorem C172_reset (sch : ISched S (FlowBatch F)) (g : Nat → Gen F O I) (cfg : Nat → Cfg) (i : Nat) (G : Group S F O) (s1 : S) (h : sch.reset G.shared = .ok s1) :
    ∃ G', gstep sch g cfg i (.reset true) G = some (.done, G') ∧ G'.shared = s1 ∧ ∀ j ≠ i, G'.smp j = G.smp j := by
  refine ⟨{ shared := s1, smp := fun j => if j = i then { resetSelf (cfg i) (withSched (G.smp i) G.shared) with sched := s1 } else G.smp j }, ?_, rfl, fun j hj => by simp [hj]⟩
  have h1 : sch.reset (resetSelf (cfg i) (withSched (G.smp i) G.shared)).sched = .ok s1 := h
  simp only [gstep, step, reset, if_true, h1, unitOut]

/-- A scheduler whose batches are 0, 1, 2, ... -/
private def counting : ISched Nat (FlowBatch Nat) where
  getBatch n s := some (.ok { flows := List.replicate n s, mask := none, files := none }, s + 1)
  reset _ := .ok 0
  episodic := none

private def copyGen : Gen Nat Nat Nat := { adapt := fun f => (f, f), render := fun _ _ _ f => f }

private def oneCfg : Cfg := { batchSize := 1, ndevices := 1, bpfb := 1, ffpb := 1, seed := 0 }
private def twoCfg : Cfg := { batchSize := 2, ndevices := 1, bpfb := 2, ffpb := 1, seed := 7 }

private def showFlows : Out (OutBatch Nat Nat) → List Nat
  | .batch b => b.flows
  | _ => []

/-- Sampler 0 makes one image batch per flow batch, sampler 1 makes two. -/
example : (grun counting (fun _ => copyGen) (fun i => if i = 0 then oneCfg else twoCfg) [(0, .next), (1, .next), (0, .next), (1, .next), (1, .next), (0, .next)]
      (ginit (fun i => if i = 0 then oneCfg else twoCfg) 0)).map (fun q => q.1.map (fun o => (o.1, showFlows o.2))) =
    some [(0, [0]), (1, [1, 1]), (0, [2]), (1, [1, 1]), (1, [3, 3]), (0, [4])] := by
  decide

/-- The data are not divided if one of them is reset: the other is given what it has had. -/
theorem C172_refuted_reset : (grun counting (fun _ => copyGen) (fun _ => oneCfg) [(0, .next), (1, .next), (0, .reset true), (0, .next), (1, .next)]
      (ginit (fun _ => oneCfg) 0)).map (fun q => q.1.map (fun o => (o.1, showFlows o.2))) =
    some [(0, [0]), (1, [1]), (0, []), (0, [0]), (1, [1])] := by
  decide

private def countingSched : Sched Nat (FlowBatch Nat) where
  getBatch := counting.getBatch
  reset _ := 0
  fileList _ := []
  setFileList _ s := s

private def showEnd : Out (OutBatch Nat Nat) → List Nat × Bool
  | .batch b => (b.flows, b.done == some [true])
  | .raised e => ([], e == .episodeEnd)
  | .done => ([], false)

/-- Nor are episodes: the two steps of the episode are steps of both samplers together. Sampler 1 sees neither the first step nor the batch marked as the last of the episode, but only the
exception for its end; and it is the call of `next_episode` on sampler 1 that starts the next episode of sampler 0. -/
theorem C172_refuted_episodes : (grun (ofEpisodic countingSched ⟨fun k : Nat => (k, k), fun _ _ b => List.replicate b 0⟩ ⟨1, 2, [("d", ["a", "b"])], [("d", 0)]⟩) (fun _ => copyGen)
      (fun _ => oneCfg) [(0, .next), (0, .next), (1, .next), (1, .nextEpisode), (0, .next), (1, .next), (0, .next)]
      (ginit (fun _ => oneCfg) { inner := 0, t := 0, key := 0 })).map (fun q => q.1.map (fun o => (o.1, showEnd o.2))) =
    some [(0, [0], false), (0, [1], true), (1, [], true), (1, [], false), (0, [0], false), (1, [1], true), (0, [], true)] := by
  decide

end Verif.Several
