import Verif.Model.Synthetic
import Verif.Proofs.SamplerRun
import Verif.Proofs.Generate
import Verif.Proofs.BaseMore
/-!
# Lemmas about the synthetic sampler as a whole
-/

namespace Verif.Sampler
open Verif
variable {S B F O I : Type}

/-- The scheduler answers some request for `n` flow fields with `b`. -/
def Delivered (sch : ISched S B) (n : Nat) (b : B) : Prop := ∃ σ σ', sch.getBatch n σ = some (.ok b, σ')

/-- What holds between the calls of any history: nothing was fetched yet, or the last flow batch could not be laid out over
the devices, or the state is that left by the adaptation of a flow batch. -/
def Holds (sch : ISched S (FlowBatch F)) (g : Gen F O I) (cfg : Cfg) (s : St S F O) : Prop :=
  s.cur = none ∨ (∃ fs, s.cur = some fs ∧ fs.length % cfg.ndevices ≠ 0) ∨
  ∃ b, Delivered sch cfg.ffpb b ∧ b.flows.length % cfg.ndevices = 0 ∧ s.cur = some (adaptAll g cfg b.flows).2 ∧
    s.outFlows = (adaptAll g cfg b.flows).1 ∧ s.mask = b.mask ∧ s.files = b.files

theorem Holds.of_eq {sch : ISched S (FlowBatch F)} {g : Gen F O I} {cfg : Cfg} {s s' : St S F O} (h : Holds sch g cfg s)
    (h1 : s'.cur = s.cur) (h2 : s'.outFlows = s.outFlows) (h3 : s'.mask = s.mask) (h4 : s'.files = s.files) : Holds sch g cfg s' := by
  unfold Holds; rw [h1, h2, h3, h4]; exact h

theorem produce_keeps (g : Gen F O I) (cfg : Cfg) (fs : List F) (s : St S F O) :
    (produce g cfg fs s).2.cur = s.cur ∧ (produce g cfg fs s).2.outFlows = s.outFlows ∧ (produce g cfg fs s).2.mask = s.mask ∧
    (produce g cfg fs s).2.files = s.files := by
  unfold produce
  dsimp only
  split <;> exact ⟨rfl, rfl, rfl, rfl⟩

theorem getNext_holds {sch : ISched S (FlowBatch F)} {g : Gen F O I} {cfg : Cfg} {s s' : St S F O} {r : Except Exc (OutBatch O I)}
    (h : Holds sch g cfg s) (hg : getNext sch g cfg s = some (r, s')) : Holds sch g cfg s' := by
  have hfetch : getNext.fetch sch g cfg s = some (r, s') → Holds sch g cfg s' := by
    intro hf
    unfold getNext.fetch at hf
    cases hb : sch.getBatch cfg.ffpb s.sched with
    | none => rw [hb] at hf; simp at hf
    | some q =>
      obtain ⟨x, sc⟩ := q
      rw [hb] at hf
      cases x with
      | error e =>
        simp only [Option.some.injEq, Prod.mk.injEq] at hf
        obtain ⟨_, rfl⟩ := hf
        exact h.of_eq rfl rfl rfl rfl
      | ok b =>
        simp only at hf
        split at hf
        · rename_i hd
          simp only [Option.some.injEq, Prod.mk.injEq] at hf
          obtain ⟨_, rfl⟩ := hf
          exact .inr (.inl ⟨_, rfl, hd⟩)
        · rename_i hd
          simp only [Option.some.injEq] at hf
          have hs : s' = (produce g cfg (adaptAll g cfg b.flows).2
            { s with generated := 0, sched := sc, cur := some (adaptAll g cfg b.flows).2, mask := b.mask, files := b.files,
                     outFlows := (adaptAll g cfg b.flows).1 }).2 := by rw [hf]
          obtain ⟨p1, p2, p3, p4⟩ := produce_keeps g cfg (adaptAll g cfg b.flows).2
            { s with generated := 0, sched := sc, cur := some (adaptAll g cfg b.flows).2, mask := b.mask, files := b.files,
                     outFlows := (adaptAll g cfg b.flows).1 }
          rw [← hs] at p1 p2 p3 p4
          exact .inr (.inr ⟨b, ⟨_, _, hb⟩, by omega, p1, p2, p3, p4⟩)
  unfold getNext at hg
  cases hc : s.cur with
  | none => rw [hc] at hg; exact hfetch hg
  | some fs =>
    rw [hc] at hg
    simp only at hg
    split at hg
    · simp only [Option.some.injEq] at hg
      obtain ⟨p1, p2, p3, p4⟩ := produce_keeps g cfg fs s
      rw [hg] at p1 p2 p3 p4
      exact h.of_eq p1 p2 p3 p4
    · exact hfetch hg

theorem next_holds {sch : ISched S (FlowBatch F)} {g : Gen F O I} {cfg : Cfg} {s s' : St S F O} {r : Except Exc (OutBatch O I)}
    (h : Holds sch g cfg s) (hg : next sch g cfg s = some (r, s')) : Holds sch g cfg s' := by
  unfold next at hg
  split at hg
  · simp only [Option.some.injEq, Prod.mk.injEq] at hg
    rw [← hg.2]; exact h
  · cases hn : getNext sch g cfg s with
    | none => rw [hn] at hg; simp at hg
    | some q =>
      obtain ⟨x, t⟩ := q
      rw [hn] at hg
      have ht := getNext_holds h hn
      cases x <;> · simp only [Option.some.injEq, Prod.mk.injEq] at hg
                    rw [← hg.2]; exact ht

theorem step_holds {sch : ISched S (FlowBatch F)} {g : Gen F O I} {cfg : Cfg} {s s' : St S F O} {op : Op} {o : Out (OutBatch O I)}
    (h : Holds sch g cfg s) (hg : step sch g cfg s op = some (o, s')) : Holds sch g cfg s' := by
  cases op with
  | next =>
    obtain ⟨r, hr, _⟩ := step_next hg
    exact next_holds h hr
  | reset b =>
    simp only [step, Option.some.injEq, Prod.mk.injEq] at hg
    obtain ⟨_, rfl⟩ := hg
    refine .inl ?_
    unfold reset
    dsimp only
    split
    · split <;> rfl
    · rfl
  | nextEpisode =>
    simp only [step, Option.some.injEq, Prod.mk.injEq] at hg
    obtain ⟨_, rfl⟩ := hg
    unfold nextEpisode
    split
    · exact h
    · split
      · exact h.of_eq rfl rfl rfl rfl
      · exact h

/-- A batch returned in a state of some history is made from a flow batch that the scheduler delivered. -/
theorem next_made {sch : ISched S (FlowBatch F)} (hfull : FullBatches sch) {g : Gen F O I} {cfg : Cfg} (hc : cfg.OK)
    {s s' : St S F O} {x : OutBatch O I} (h : Holds sch g cfg s) (hx : next sch g cfg s = some (.ok x, s')) :
    (∃ b, Delivered sch cfg.ffpb b ∧ b.flows.length = cfg.ffpb ∧ b.flows.length % cfg.ndevices = 0 ∧
      MadeFrom g cfg s.rng.split2.2 b x) ∧ x.done = makeDone sch cfg.batchSize s'.sched := by
  have hp := hc.ffpb
  obtain ⟨_, hcase⟩ := next_ok hx
  rcases hcase with ⟨fl, hcur, _, hdv, rfl, rfl⟩ | ⟨_, b, sc, hb, hdv, rfl, rfl⟩
  · rcases h with h | ⟨fs, h, hd⟩ | ⟨b, ⟨σ, σ', hb⟩, hd, h1, h2, h3, h4⟩
    · rw [h] at hcur; simp at hcur
    · rw [h] at hcur
      simp only [Option.some.injEq] at hcur
      rw [hcur] at hd
      exact absurd hdv hd
    · have hl := hfull _ _ _ _ hb
      rw [h1] at hcur
      simp only [Option.some.injEq] at hcur
      refine ⟨⟨b, ⟨σ, σ', hb⟩, hl, hd, ?_⟩, rfl⟩
      rw [h2, h3, h4, ← hcur]
      exact MadeFrom.of_images g cfg hc _ b (by omega) hd _
  · have hl := hfull _ _ _ _ hb
    exact ⟨⟨b, ⟨_, _, hb⟩, hl, hdv, MadeFrom.of_images g cfg hc _ b (by omega) hdv _⟩, rfl⟩

/-- The same for every batch of every history. -/
theorem run_made {sch : ISched S (FlowBatch F)} (hfull : FullBatches sch) {g : Gen F O I} {cfg : Cfg} (hc : cfg.OK) :
    ∀ (ops : List Op) (s s' : St S F O) (outs : List (Out (OutBatch O I))), Holds sch g cfg s →
      run sch g cfg ops s = some (outs, s') → ∀ x, .batch x ∈ outs →
      (∃ b k, Delivered sch cfg.ffpb b ∧ b.flows.length = cfg.ffpb ∧ b.flows.length % cfg.ndevices = 0 ∧ MadeFrom g cfg k b x) ∧
      ∃ σ, x.done = makeDone sch cfg.batchSize σ := by
  intro ops
  induction ops with
  | nil =>
    intro s s' outs _ hr x hx
    simp only [run, Option.some.injEq, Prod.mk.injEq] at hr
    rw [← hr.1] at hx
    simp at hx
  | cons op ops ih =>
    intro s s' outs h hr x hx
    obtain ⟨o, s1, os, hst, hrest, rfl⟩ := run_cons hr
    rcases List.mem_cons.mp hx with rfl | hx
    · cases op with
      | next =>
        obtain ⟨r, hn, ho⟩ := step_next hst
        cases r with
        | error e => simp [batchOut] at ho
        | ok y =>
          simp only [batchOut, Out.batch.injEq] at ho
          subst ho
          obtain ⟨⟨b, h1, h2, h3, h4⟩, h5⟩ := next_made hfull hc h hn
          exact ⟨⟨b, _, h1, h2, h3, h4⟩, _, h5⟩
      | reset b =>
        simp only [step, Option.some.injEq, Prod.mk.injEq] at hst
        cases hq : (reset sch cfg b s).1 <;> rw [hq] at hst <;> simp [unitOut] at hst
      | nextEpisode =>
        simp only [step, Option.some.injEq, Prod.mk.injEq] at hst
        cases hq : (nextEpisode sch s).1 <;> rw [hq] at hst <;> simp [unitOut] at hst
    · exact ih s1 s' os (step_holds h hst) hrest x hx

end Verif.Sampler

namespace Verif.Synthetic
open Verif

theorem stack_head {V : Type} {l : List (Arr V)} {x : Arr V} (h : Arr.stack l = .ok x) : x.shape.headD 0 = l.length := by
  unfold Arr.stack at h
  split at h
  · simp at h
  · split at h
    · simp only [Except.ok.injEq] at h
      rw [← h]; rfl
    · simp at h

theorem pad_head {V : Type} {zero : V} {p k : Nat} {x y : Arr V} (h : Arr.padFirst zero p k x = .ok y) :
    y.shape.headD 0 = x.shape.headD 0 + k := by
  unfold Arr.padFirst at h
  split at h
  · split at h
    · simp at h
    · rename_i hs
      simp only [Except.ok.injEq] at h
      rw [← h, hs]; rfl
  · simp at h

theorem assemble_head {V : Type} {zero : V} {c : Base.Cfg} {l : List (Base.Sample V)} {n : Nat} {b : Base.Batch V}
    (h : Base.assemble zero c l n = .ok b) (hn : l.length ≤ n) : b.flow.shape.headD 0 = n := by
  unfold Base.assemble at h
  simp only [bind, Except.bind, pure, Except.pure] at h
  cases h1 : Base.assembleImages zero (l.map Base.Sample.images1) n with
  | error e => rw [h1] at h; simp at h
  | ok a1 =>
    cases h2 : Base.assembleImages zero (l.map Base.Sample.images2) n with
    | error e => rw [h1, h2] at h; simp at h
    | ok a2 =>
      cases h3 : Arr.stack (l.map Base.Sample.flow) with
      | error e => rw [h1, h2, h3] at h; simp at h
      | ok a3 =>
        cases h4 : Base.assembleFiles (l.map Base.Sample.files) n with
        | error e => rw [h1, h2, h3, h4] at h; simp at h
        | ok a4 =>
          rw [h1, h2, h3, h4] at h
          have hs := stack_head h3
          rw [List.length_map] at hs
          simp only at h
          by_cases hlt : l.length < n
          · simp only [if_pos hlt] at h
            cases h5 : Arr.padFirst zero 4 (n - l.length) a3 with
            | error e => rw [h5] at h; simp at h
            | ok a5 =>
              rw [h5] at h
              simp only [Except.ok.injEq] at h
              rw [← h]
              have := pad_head h5
              show a5.shape.headD 0 = n
              omega
          · simp only [if_neg hlt, Except.ok.injEq] at h
            rw [← h]
            show a3.shape.headD 0 = n
            omega

/-- A successful request of a base scheduler yields as many flow fields and entries of the mask as asked for. -/
theorem base_rows {V D Key : Type} {zero : V} {w : Base.World V D Key} {c : Base.Cfg} {fuel n : Nat} {s s' : Base.St D Key} {b : Base.Batch V}
    (h : Base.getBatch zero w c fuel n s = some (.ok b, s')) : b.flow.rows.length = n ∧ b.mask.length = n := by
  have key : ∀ l : List (Base.Sample V), l.length ≤ n → Base.assemble zero c l n = .ok b → b.flow.rows.length = n ∧ b.mask.length = n := by
    intro l hl ha
    refine ⟨by rw [Arr.rows, List.length_map, List.length_range]; exact assemble_head ha hl, ?_⟩
    rw [Base.assemble_mask ha]
    split <;> simp
    omega
  unfold Base.getBatch at h
  cases hc : Base.collect w c fuel n s with
  | none => rw [hc] at h; simp at h
  | some q =>
    obtain ⟨x, t⟩ := q
    rw [hc] at h
    cases x with
    | error e => simp at h
    | ok l =>
      have hl := Base.collect_length n fuel s hc
      simp only at h
      split at h
      · split at h
        · simp only [Option.some.injEq, Prod.mk.injEq] at h
          exact key l hl h.1
        · simp at h
      · simp only [Option.some.injEq, Prod.mk.injEq] at h
        exact key l hl h.1

/-- Base schedulers deliver full batches. -/
theorem fieldSched_full {D Key : Type} (w : Base.World ℚ D Key) (c : Base.Cfg) (fuel n : Nat) (s s' : Base.St D Key)
    (b : Sampler.FlowBatch (Adapter.Field2 ℚ)) (h : (fieldSched w c fuel).getBatch n s = some (.ok b, s')) : b.flows.length = n := by
  simp only [fieldSched, Stack.viewSched, Option.map_eq_some_iff] at h
  obtain ⟨q, hq, he⟩ := h
  simp only [Prod.mk.injEq] at he
  obtain ⟨r, t⟩ := q
  cases r with
  | error e => simp [Except.map] at he
  | ok x =>
    simp only [Except.map, Except.ok.injEq] at he
    rw [← he.1, List.length_map]
    exact (base_rows hq).1

theorem full_plain {D Key : Type} (w : Base.World ℚ D Key) (c : Base.Cfg) (fuel : Nat) :
    Sampler.FullBatches (Sampler.ofPlain (fieldSched w c fuel)) := fun n s b s' h => fieldSched_full w c fuel n s s' b h

theorem full_episodic {D Key K : Type} (w : Base.World ℚ D Key) (c : Base.Cfg) (fuel : Nat) (rng : Episodic.Rng K) (ecfg : Episodic.Cfg) :
    Sampler.FullBatches (Sampler.ofEpisodic (fieldSched w c fuel) rng ecfg) := by
  intro n e b e' h
  have h' : Episodic.getBatch (fieldSched w c fuel) ecfg n e = some (.ok b, e') := h
  unfold Episodic.getBatch at h'
  split at h'
  · simp at h'
  · split at h'
    · simp at h'
    · cases hb : (fieldSched w c fuel).getBatch n e.inner with
      | none => rw [hb] at h'; simp at h'
      | some q =>
        rw [hb] at h'
        simp only [Option.some.injEq, Prod.mk.injEq] at h'
        refine fieldSched_full w c fuel n e.inner q.2 b ?_
        rw [hb, ← h'.1]

/-- What an accepted call of the constructor means. -/
theorem make_ok {fl fl32 : ℚ → ℚ} {a : Args} {m : Made} (h : make fl fl32 a = .ok m) :
    specOK a.spec a.imgOffset = true ∧ maskOK a = true ∧ histogramOK a = true ∧
    Sampler.Cfg.make a.spec.batchSize a.ndevices a.isEpisodic a.bpfb a.ffpb a.seed = .ok m.cfg ∧ (a.channels = 2 ∨ a.channels = 3) ∧
    0 < a.velocitiesPerPixel ∧ a.pixels = some m.pixels ∧ Geometry.build fl fl32 a.geometry = .ok m.geo ∧
    m.outShape = (outLen fl a.spec.imageShape.1 a.velocitiesPerPixel, outLen fl a.spec.imageShape.2 a.velocitiesPerPixel) := by
  unfold make at h
  split at h
  · simp at h
  · rename_i h1
    split at h
    · simp at h
    · rename_i h2
      split at h
      · simp at h
      · rename_i h3
        split at h
        · simp at h
        · rename_i cfg h4
          split at h
          · simp at h
          · rename_i h5
            split at h
            · simp at h
            · rename_i h6
              split at h
              · simp at h
              · rename_i px h7
                split at h
                · simp at h
                · rename_i g h8
                  simp only [Except.ok.injEq] at h
                  subst h
                  simp only [Decidable.not_not] at h1 h2 h3
                  exact ⟨h1, h2, h3, h4, by omega, not_le.mp h6, h7, h8, rfl⟩

end Verif.Synthetic
