import Verif.Spec.InterruptSampler
import Verif.Props.Resets
/-!
# C176: calls of the synthetic sampler that are interrupted
-/

namespace Verif.InterruptSampler
open Verif Sampler

variable {S F O I : Type}

private theorem steps_add (sch : ISched S (FlowBatch F)) (g : Gen F O I) (cfg : Cfg) (m n : Nat) (x : Pc F O I × St S F O) :
    steps sch g cfg (m + n) x = steps sch g cfg n (steps sch g cfg m x) := by
  induction m generalizing x with
  | zero => rw [Nat.zero_add]; rfl
  | succ m ih => rw [Nat.succ_add]; exact ih _

private theorem steps_done (sch : ISched S (FlowBatch F)) (g : Gen F O I) (cfg : Cfg) (n : Nat) (r : Except Exc (OutBatch O I)) (s : St S F O) :
    steps sch g cfg n (.done r, s) = (.done r, s) := by
  induction n with
  | zero => rfl
  | succ n ih => exact ih

private theorem ends_unique {sch : ISched S (FlowBatch F)} {g : Gen F O I} {cfg : Cfg} {s : St S F O} {r r' : Except Exc (OutBatch O I)} {s1 s2 : St S F O}
    (h1 : Ends sch g cfg s r s1) (h2 : Ends sch g cfg s r' s2) : r = r' ∧ s1 = s2 := by
  obtain ⟨n, h1⟩ := h1
  obtain ⟨m, h2⟩ := h2
  have e1 : steps sch g cfg (n + m) (.head, s) = (.done r, s1) := by rw [steps_add, h1, steps_done]
  have e2 : steps sch g cfg (n + m) (.head, s) = (.done r', s2) := by rw [Nat.add_comm, steps_add, h2, steps_done]
  rw [e1] at e2
  injection e2 with a b
  injection a with a
  exact ⟨a, b⟩

private theorem split_ok {sch : ISched S (FlowBatch F)} {g : Gen F O I} {cfg : Cfg} {s : St S F O} {flows : List F} (hc : s.cur = some flows)
    (hd : flows.length % cfg.ndevices = 0) :
    steps sch g cfg 4 (.split, s) =
      (.done (.ok { images := images g cfg s.rng.split2.2 flows, flows := s.outFlows, mask := s.mask, files := s.files, done := makeDone sch cfg.batchSize s.sched }),
       { s with rng := s.rng.split2.1, generated := s.generated + 1 }) := by
  have e : step sch g cfg (.make s.rng.split2.2, { s with rng := s.rng.split2.1 }) =
      (.bump { images := images g cfg s.rng.split2.2 flows, flows := s.outFlows, mask := s.mask, files := s.files, done := none }, { s with rng := s.rng.split2.1 }) := by
    simp only [step, hc, Option.getD_some, hd, ne_eq, not_true_eq_false, if_false]
  show step sch g cfg (step sch g cfg (step sch g cfg (.make s.rng.split2.2, { s with rng := s.rng.split2.1 }))) = _
  rw [e]
  rfl

private theorem split_bad {sch : ISched S (FlowBatch F)} {g : Gen F O I} {cfg : Cfg} {s : St S F O} {flows : List F} (hc : s.cur = some flows)
    (hd : flows.length % cfg.ndevices ≠ 0) : steps sch g cfg 2 (.split, s) = (.done (.error .valueError), { s with rng := s.rng.split2.1 }) := by
  show step sch g cfg (.make s.rng.split2.2, { s with rng := s.rng.split2.1 }) = _
  simp only [step, hc, Option.getD_some, if_pos hd]

private theorem head_ready {sch : ISched S (FlowBatch F)} {g : Gen F O I} {cfg : Cfg} {s : St S F O} {flows : List F} (hc : s.cur = some flows)
    (hg : s.generated < cfg.bpfb) (he : episodeOver sch s.sched = false) : steps sch g cfg 1 (.head, s) = (.split, s) := by
  have h1 : ¬ (s.cur.isNone = true ∨ cfg.bpfb ≤ s.generated) := by rw [hc]; simp; omega
  show step sch g cfg (.head, s) = _
  simp only [step, he, Bool.false_eq_true, if_false, if_neg h1]

private theorem head_over {sch : ISched S (FlowBatch F)} {g : Gen F O I} {cfg : Cfg} {s : St S F O} (he : episodeOver sch s.sched = true) :
    steps sch g cfg 1 (.head, s) = (.done (.error .episodeEnd), s) := by
  show step sch g cfg (.head, s) = _
  simp only [step, he, if_true]

/-- A new flow batch is needed. -/
private def Needs (cfg : Cfg) (s : St S F O) : Prop := s.cur.isNone ∨ cfg.bpfb ≤ s.generated

private theorem head_fetch {sch : ISched S (FlowBatch F)} {g : Gen F O I} {cfg : Cfg} {s : St S F O} (hn : Needs cfg s)
    (he : episodeOver sch s.sched = false) : steps sch g cfg 1 (.head, s) = (.zero, s) := by
  have h1 : s.cur.isNone = true ∨ cfg.bpfb ≤ s.generated := hn
  show step sch g cfg (.head, s) = _
  simp only [step, he, Bool.false_eq_true, if_false, if_pos h1]

/-- The state with a new flow batch, before and after it has been adapted. -/
private def fetched (s : St S F O) (b : FlowBatch F) (sc : S) : St S F O :=
  { s with generated := 0, sched := sc, cur := some b.flows, mask := b.mask, files := b.files }

private def adapted (g : Gen F O I) (cfg : Cfg) (s : St S F O) (b : FlowBatch F) (sc : S) : St S F O :=
  { fetched s b sc with outFlows := (adaptAll g cfg b.flows).1, cur := some (adaptAll g cfg b.flows).2 }

private theorem fetch_steps {sch : ISched S (FlowBatch F)} {g : Gen F O I} {cfg : Cfg} {s : St S F O} {b : FlowBatch F} {sc : S} (hn : Needs cfg s)
    (he : episodeOver sch s.sched = false) (hf : sch.getBatch cfg.ffpb s.sched = some (.ok b, sc)) :
    steps sch g cfg 6 (.head, s) = (.adapt, fetched s b sc) := by
  rw [show 6 = 1 + 5 from rfl, steps_add, head_fetch hn he]
  have e : step sch g cfg (.fetch, { s with generated := 0 }) = (.setFlows b, { s with generated := 0, sched := sc }) := by
    simp only [step, hf]
  show step sch g cfg (step sch g cfg (step sch g cfg (step sch g cfg (.fetch, { s with generated := 0 })))) = _
  rw [e]
  rfl

private theorem adapt_steps {sch : ISched S (FlowBatch F)} {g : Gen F O I} {cfg : Cfg} {s : St S F O} {b : FlowBatch F} {sc : S}
    (hd : b.flows.length % cfg.ndevices = 0) : steps sch g cfg 3 (.adapt, fetched s b sc) = (.split, adapted g cfg s b sc) := by
  have e : step sch g cfg (.adapt, fetched s b sc) = (.setOut (adaptAll g cfg b.flows), fetched s b sc) := by
    simp only [step, fetched, Option.getD_some, hd, ne_eq, not_true_eq_false, if_false]
  show step sch g cfg (step sch g cfg (step sch g cfg (.adapt, fetched s b sc))) = _
  rw [e]
  rfl

private theorem adapt_bad {sch : ISched S (FlowBatch F)} {g : Gen F O I} {cfg : Cfg} {s : St S F O} {b : FlowBatch F} {sc : S}
    (hd : b.flows.length % cfg.ndevices ≠ 0) : steps sch g cfg 1 (.adapt, fetched s b sc) = (.done (.error .valueError), fetched s b sc) := by
  have hd' : ((fetched s b sc).cur.getD []).length % cfg.ndevices ≠ 0 := hd
  show step sch g cfg (.adapt, fetched s b sc) = _
  exact if_pos hd'

private theorem adaptAll_length {g : Gen F O I} {cfg : Cfg} (l : List F) : (adaptAll g cfg l).2.length = l.length := by simp [adaptAll]

private theorem stuck {sch : ISched S (FlowBatch F)} {g : Gen F O I} {cfg : Cfg} {s : St S F O} (h : sch.getBatch cfg.ffpb s.sched = none) (n : Nat) :
    steps sch g cfg n (.fetch, s) = (.fetch, s) := by
  induction n with
  | zero => rfl
  | succ n ih =>
    show steps sch g cfg n (step sch g cfg (.fetch, s)) = _
    have e : step sch g cfg (.fetch, s) = (.fetch, s) := by simp only [step, h]
    rw [e, ih]

private theorem next_ends {sch : ISched S (FlowBatch F)} {g : Gen F O I} {cfg : Cfg} {s : St S F O} {r : Except Exc (OutBatch O I)} {s' : St S F O}
    (h : Sampler.next sch g cfg s = some (r, s')) : Ends sch g cfg s r s' := by
  unfold Sampler.next at h
  cases he : episodeOver sch s.sched with
  | true =>
    rw [he] at h
    simp only [if_true, Option.some.injEq, Prod.mk.injEq] at h
    obtain ⟨rfl, rfl⟩ := h
    exact ⟨1, head_over he⟩
  | false =>
    rw [he] at h
    simp only [Bool.false_eq_true, if_false] at h
    by_cases hn : Needs cfg s
    · have hg : getNext sch g cfg s = getNext.fetch sch g cfg s := by
        unfold getNext
        rcases hn with hn | hn
        · cases hc : s.cur with
          | none => rfl
          | some fl => rw [hc] at hn; simp at hn
        · cases hc : s.cur with
          | none => rfl
          | some fl => simp only; rw [if_neg (by omega)]
      rw [hg] at h
      unfold getNext.fetch at h
      cases hf : sch.getBatch cfg.ffpb s.sched with
      | none => rw [hf] at h; simp at h
      | some q =>
        obtain ⟨q, sc⟩ := q
        rw [hf] at h
        cases q with
        | error e =>
          simp only [Option.some.injEq, Prod.mk.injEq] at h
          obtain ⟨rfl, rfl⟩ := h
          refine ⟨1 + 2, ?_⟩
          rw [steps_add, head_fetch hn he]
          show step sch g cfg (.fetch, { s with generated := 0 }) = _
          simp only [step, hf]
        | ok b =>
          dsimp only at h
          by_cases hd : b.flows.length % cfg.ndevices = 0
          · rw [if_neg (by simpa using hd)] at h
            simp only [produce, adaptAll_length, hd, ne_eq, not_true_eq_false, if_false, Option.some.injEq, Prod.mk.injEq] at h
            obtain ⟨rfl, rfl⟩ := h
            refine ⟨6 + (3 + 4), ?_⟩
            rw [steps_add, fetch_steps hn he hf, steps_add, adapt_steps hd, split_ok (s := adapted g cfg s b sc) rfl (by rw [adaptAll_length]; exact hd)]
            rfl
          · rw [if_pos (by simpa using hd)] at h
            simp only [Option.some.injEq, Prod.mk.injEq] at h
            obtain ⟨rfl, rfl⟩ := h
            refine ⟨6 + 1, ?_⟩
            rw [steps_add, fetch_steps hn he hf, adapt_bad hd]
            rfl
    · have hn1 : ¬ s.cur.isNone = true ∧ s.generated < cfg.bpfb := by
        unfold Needs at hn
        rw [not_or] at hn
        exact ⟨hn.1, by omega⟩
      cases hc : s.cur with
      | none => rw [hc] at hn1; simp at hn1
      | some fl =>
        have hg : getNext sch g cfg s = some (produce g cfg fl s) := by
          unfold getNext
          rw [hc]
          simp only
          rw [if_pos hn1.2]
        rw [hg] at h
        by_cases hd : fl.length % cfg.ndevices = 0
        · simp only [produce, hd, ne_eq, not_true_eq_false, if_false, Option.some.injEq, Prod.mk.injEq] at h
          obtain ⟨rfl, rfl⟩ := h
          exact ⟨1 + 4, by rw [steps_add, head_ready hc hn1.2 he, split_ok hc hd]⟩
        · simp only [produce, ne_eq, hd, not_false_eq_true, if_true, Option.some.injEq, Prod.mk.injEq] at h
          obtain ⟨rfl, rfl⟩ := h
          exact ⟨1 + 2, by rw [steps_add, head_ready hc hn1.2 he, split_bad hc hd]⟩

/-- If the scheduler is waited for forever, the call does not end. -/
private theorem next_none {sch : ISched S (FlowBatch F)} {g : Gen F O I} {cfg : Cfg} {s : St S F O} (h : Sampler.next sch g cfg s = none) :
    ∀ r s', ¬ Ends sch g cfg s r s' := by
  unfold Sampler.next at h
  cases he : episodeOver sch s.sched with
  | true => rw [he] at h; simp at h
  | false =>
    rw [he] at h
    simp only [Bool.false_eq_true, if_false] at h
    have hgn : getNext sch g cfg s = none := by
      cases hq : getNext sch g cfg s with
      | none => rfl
      | some q =>
        rw [hq] at h
        obtain ⟨q, s1⟩ := q
        cases q <;> simp at h
    by_cases hn : Needs cfg s
    · have hg : getNext sch g cfg s = getNext.fetch sch g cfg s := by
        unfold getNext
        rcases hn with hn | hn
        · cases hc : s.cur with
          | none => rfl
          | some fl => rw [hc] at hn; simp at hn
        · cases hc : s.cur with
          | none => rfl
          | some fl => simp only; rw [if_neg (by omega)]
      rw [hg] at hgn
      unfold getNext.fetch at hgn
      have hf : sch.getBatch cfg.ffpb s.sched = none := by
        cases hf : sch.getBatch cfg.ffpb s.sched with
        | none => rfl
        | some q =>
          obtain ⟨q, sc⟩ := q
          rw [hf] at hgn
          cases q with
          | error e => simp at hgn
          | ok b =>
            dsimp only at hgn
            split at hgn <;> simp at hgn
      rintro r s' ⟨n, hr⟩
      have e1 : steps sch g cfg (2 + n) (.head, s) = (.fetch, { s with generated := 0 }) := by
        rw [show 2 + n = 1 + (1 + n) by omega, steps_add, head_fetch hn he, steps_add]
        exact stuck (s := { s with generated := 0 }) hf n
      have e2 : steps sch g cfg (2 + n) (.head, s) = (.done r, s') := by rw [Nat.add_comm, steps_add, hr, steps_done]
      rw [e1] at e2
      injection e2 with a _
      cases a
    · have hn1 : ¬ s.cur.isNone = true ∧ s.generated < cfg.bpfb := by
        unfold Needs at hn
        rw [not_or] at hn
        exact ⟨hn.1, by omega⟩
      cases hc : s.cur with
      | none => rw [hc] at hn1; simp at hn1
      | some fl =>
        unfold getNext at hgn
        rw [hc] at hgn
        simp only at hgn
        rw [if_pos hn1.2] at hgn
        cases hgn

/-- **C176** (the machine is the code). Executed assignment by assignment, a call that is not interrupted ends as in the model without interruptions. -/
theorem C176_agrees (sch : ISched S (FlowBatch F)) (g : Gen F O I) (cfg : Cfg) (s : St S F O) (r : Except Exc (OutBatch O I)) (s' : St S F O) :
    Ends sch g cfg s r s' ↔ Sampler.next sch g cfg s = some (r, s') := by
  constructor
  · intro h
    cases hq : Sampler.next sch g cfg s with
    | none => exact absurd h (next_none hq r s')
    | some q =>
      obtain ⟨r', s''⟩ := q
      obtain ⟨rfl, rfl⟩ := ends_unique h (next_ends hq)
      rfl
  · exact next_ends

/-- A call in the state `s0` needs the flow batch `b`, and the scheduler is `sc` then. -/
private def Gets (sch : ISched S (FlowBatch F)) (cfg : Cfg) (s0 : St S F O) (b : FlowBatch F) (sc : S) : Prop :=
  Needs cfg s0 ∧ episodeOver sch s0.sched = false ∧ sch.getBatch cfg.ffpb s0.sched = some (.ok b, sc)

/-- The states in which a call in the state `s0` begins with the images. -/
private def Mid (sch : ISched S (FlowBatch F)) (g : Gen F O I) (cfg : Cfg) (s0 s1 : St S F O) : Prop :=
  (s1 = s0 ∧ episodeOver sch s0.sched = false ∧ s0.generated < cfg.bpfb ∧ ∃ flows, s0.cur = some flows) ∨
  ∃ b sc, Gets sch cfg s0 b sc ∧ b.flows.length % cfg.ndevices = 0 ∧ s1 = adapted g cfg s0 b sc

private def J (sch : ISched S (FlowBatch F)) (g : Gen F O I) (cfg : Cfg) (s0 : St S F O) : Pc F O I → St S F O → Prop
  | .head, s => s = s0
  | .zero, s => s = s0 ∧ Needs cfg s0 ∧ episodeOver sch s0.sched = false
  | .fetch, s => s = { s0 with generated := 0 } ∧ Needs cfg s0 ∧ episodeOver sch s0.sched = false
  | .setFlows b, s => ∃ sc, Gets sch cfg s0 b sc ∧ s = { s0 with generated := 0, sched := sc }
  | .setMask b, s => ∃ sc, Gets sch cfg s0 b sc ∧ s = { s0 with generated := 0, sched := sc, cur := some b.flows }
  | .setFiles b, s => ∃ sc, Gets sch cfg s0 b sc ∧ s = { s0 with generated := 0, sched := sc, cur := some b.flows, mask := b.mask }
  | .adapt, s => ∃ b sc, Gets sch cfg s0 b sc ∧ s = fetched s0 b sc
  | .setOut a, s => ∃ b sc, Gets sch cfg s0 b sc ∧ b.flows.length % cfg.ndevices = 0 ∧ a = adaptAll g cfg b.flows ∧ s = fetched s0 b sc
  | .setAdapted fl, s => ∃ b sc, Gets sch cfg s0 b sc ∧ b.flows.length % cfg.ndevices = 0 ∧ fl = (adaptAll g cfg b.flows).2 ∧
      s = { fetched s0 b sc with outFlows := (adaptAll g cfg b.flows).1 }
  | .split, s => Mid sch g cfg s0 s
  | .make k, s => ∃ s1, Mid sch g cfg s0 s1 ∧ k = s1.rng.split2.2 ∧ s = { s1 with rng := s1.rng.split2.1 }
  | .bump b, s => ∃ s1 fl, Mid sch g cfg s0 s1 ∧ b.images = images g cfg s1.rng.split2.2 fl ∧ s = { s1 with rng := s1.rng.split2.1 }
  | .flags b, s => ∃ s1 fl, Mid sch g cfg s0 s1 ∧ b.images = images g cfg s1.rng.split2.2 fl ∧ s = { s1 with rng := s1.rng.split2.1, generated := s1.generated + 1 }
  | .done r, s => match r with
    | .error _ => s.rng = s0.rng ∨ s.rng = s0.rng.split2.1
    | .ok b => s.rng = s0.rng.split2.1 ∧ ∃ fl, b.images = images g cfg s0.rng.split2.2 fl

private theorem mid_rng {sch : ISched S (FlowBatch F)} {g : Gen F O I} {cfg : Cfg} {s0 s1 : St S F O} (h : Mid sch g cfg s0 s1) : s1.rng = s0.rng := by
  rcases h with ⟨rfl, _⟩ | ⟨b, sc, _, _, rfl⟩
  · rfl
  · rfl

private theorem J_step {sch : ISched S (FlowBatch F)} {g : Gen F O I} {cfg : Cfg} {s0 s : St S F O} {pc : Pc F O I} (h : J sch g cfg s0 pc s) :
    J sch g cfg s0 (step sch g cfg (pc, s)).1 (step sch g cfg (pc, s)).2 := by
  cases pc with
  | head =>
    obtain rfl : s = s0 := h
    simp only [step]
    split
    · exact .inl rfl
    · rename_i he
      have he : episodeOver sch s.sched = false := by simpa using he
      split
      · exact ⟨rfl, by assumption, he⟩
      · rename_i hn
        rw [not_or] at hn
        refine .inl ⟨rfl, he, by omega, ?_⟩
        cases hc : s.cur with
        | none => rw [hc] at hn; simp at hn
        | some fl => exact ⟨fl, rfl⟩
  | zero =>
    obtain ⟨rfl, h1, h2⟩ := h
    exact ⟨rfl, h1, h2⟩
  | fetch =>
    obtain ⟨rfl, h1, h2⟩ := h
    simp only [step]
    split
    · exact ⟨rfl, h1, h2⟩
    · exact .inl rfl
    · exact ⟨_, ⟨h1, h2, by assumption⟩, rfl⟩
  | setFlows b => obtain ⟨sc, h1, rfl⟩ := h; exact ⟨sc, h1, rfl⟩
  | setMask b => obtain ⟨sc, h1, rfl⟩ := h; exact ⟨sc, h1, rfl⟩
  | setFiles b => obtain ⟨sc, h1, rfl⟩ := h; exact ⟨b, sc, h1, rfl⟩
  | adapt =>
    obtain ⟨b, sc, h1, rfl⟩ := h
    simp only [step]
    split
    · exact .inl rfl
    · rename_i hd
      exact ⟨b, sc, h1, by simpa [fetched] using hd, rfl, rfl⟩
  | setOut a => obtain ⟨b, sc, h1, h2, rfl, rfl⟩ := h; exact ⟨b, sc, h1, h2, rfl, rfl⟩
  | setAdapted fl => obtain ⟨b, sc, h1, h2, rfl, rfl⟩ := h; exact .inr ⟨b, sc, h1, h2, rfl⟩
  | split => exact ⟨s, h, rfl, rfl⟩
  | make k =>
    obtain ⟨s1, h1, rfl, rfl⟩ := h
    simp only [step]
    split
    · exact .inr (congrArg (fun k => (KeyTerm.split2 k).1) (mid_rng h1))
    · exact ⟨s1, _, h1, rfl, rfl⟩
  | bump b => obtain ⟨s1, fl, h1, h2, rfl⟩ := h; exact ⟨s1, fl, h1, h2, rfl⟩
  | flags b =>
    obtain ⟨s1, fl, h1, h2, rfl⟩ := h
    exact ⟨congrArg (fun k => (KeyTerm.split2 k).1) (mid_rng h1), fl, by rw [← mid_rng h1]; exact h2⟩
  | done r => exact h

private theorem J_steps {sch : ISched S (FlowBatch F)} {g : Gen F O I} {cfg : Cfg} {s0 : St S F O} (n : Nat) :
    J sch g cfg s0 (steps sch g cfg n (.head, s0)).1 (steps sch g cfg n (.head, s0)).2 := by
  suffices ∀ x : Pc F O I × St S F O, J sch g cfg s0 x.1 x.2 → J sch g cfg s0 (steps sch g cfg n x).1 (steps sch g cfg n x).2 from this (.head, s0) rfl
  induction n with
  | zero => exact fun x h => h
  | succ n ih => exact fun x h => ih _ (J_step h)

/-- From the state in which a call begins with the images: what it returns, and what the next call returns if this one is interrupted now or after the key has been
split. -/
private theorem mid_ends {sch : ISched S (FlowBatch F)} {g : Gen F O I} {cfg : Cfg} (hb : 0 < cfg.bpfb) {s0 s1 : St S F O} (h : Mid sch g cfg s0 s1) :
    ∃ fl n, steps sch g cfg n (.head, s0) = (.split, s1) ∧ s1.cur = some fl ∧ s1.generated < cfg.bpfb := by
  rcases h with ⟨rfl, h1, h2, fl, h3⟩ | ⟨b, sc, ⟨h1, h2, h3⟩, h4, rfl⟩
  · exact ⟨fl, 1, head_ready h3 h2 h1, h3, h2⟩
  · exact ⟨_, 6 + 3, by rw [steps_add, fetch_steps h1 h2 h3, adapt_steps h4], rfl, hb⟩

private theorem ends_of_split {sch : ISched S (FlowBatch F)} {g : Gen F O I} {cfg : Cfg} {s0 s1 : St S F O} {fl : List F} {n : Nat}
    (h : steps sch g cfg n (.head, s0) = (.split, s1)) (hc : s1.cur = some fl) {b : OutBatch O I} {t : St S F O} (he : Ends sch g cfg s0 (.ok b) t) :
    fl.length % cfg.ndevices = 0 ∧ t = { s1 with rng := s1.rng.split2.1, generated := s1.generated + 1 } ∧
    b = { images := images g cfg s1.rng.split2.2 fl, flows := s1.outFlows, mask := s1.mask, files := s1.files, done := makeDone sch cfg.batchSize s1.sched } := by
  by_cases hd : fl.length % cfg.ndevices = 0
  · obtain ⟨e1, e2⟩ := ends_unique he ⟨n + 4, by rw [steps_add, h, split_ok hc hd]⟩
    injection e1 with e1
    exact ⟨hd, e2, e1⟩
  · obtain ⟨e1, _⟩ := ends_unique he ⟨n + 2, by rw [steps_add, h, split_bad hc hd]⟩
    cases e1

private theorem ready_ends {sch : ISched S (FlowBatch F)} {g : Gen F O I} {cfg : Cfg} {s : St S F O} {fl : List F} (hc : s.cur = some fl)
    (hg : s.generated < cfg.bpfb) (he : episodeOver sch s.sched = false) (hd : fl.length % cfg.ndevices = 0) :
    Ends sch g cfg s (.ok { images := images g cfg s.rng.split2.2 fl, flows := s.outFlows, mask := s.mask, files := s.files
                            done := makeDone sch cfg.batchSize s.sched }) { s with rng := s.rng.split2.1, generated := s.generated + 1 } :=
  ⟨1 + 4, by rw [steps_add, head_ready hc hg he, split_ok hc hd]⟩

/-- **C176** (partial). A call is interrupted, in any state, before a new flow batch is asked for or after it has been adapted. Then nothing has happened; or all has
happened, and only the batch is lost; or else, unless the episode is over, the next call returns a batch like the one the interrupted call would have returned: of the
same flow fields, with the same reported flow, mask and names, and with images made with the same key or with the next one. -/
theorem C176_resumes_partial (sch : ISched S (FlowBatch F)) (g : Gen F O I) (cfg : Cfg) (hb : 0 < cfg.bpfb) (s : St S F O) (pc : Pc F O I) (s' : St S F O)
    (h : Stopped sch g cfg s pc s') (ht : ¬ Torn pc) :
    s' = s ∨ (∃ r, Ends sch g cfg s r s') ∨
    ∀ b t, Ends sch g cfg s (.ok b) t → episodeOver sch s'.sched = false →
      ∃ b' t' fl, Ends sch g cfg s' (.ok b') t' ∧ b'.flows = b.flows ∧ b'.mask = b.mask ∧ b'.files = b.files ∧ b.images = images g cfg s.rng.split2.2 fl ∧
        (b'.images = images g cfg s.rng.split2.2 fl ∨ b'.images = images g cfg s.rng.split2.1.split2.2 fl) := by
  obtain ⟨n, s1, hn, hs'⟩ := h
  have hJ := J_steps (sch := sch) (g := g) (cfg := cfg) (s0 := s) n
  rw [hn] at hJ
  obtain rfl : s' = s1 := by
    rcases hs' with rfl | ⟨rfl, _⟩
    · rfl
    · exact absurd trivial ht
  have key : ∀ s1, Mid sch g cfg s s1 → ∀ b t, Ends sch g cfg s (.ok b) t →
      ∃ fl, s1.cur = some fl ∧ s1.generated < cfg.bpfb ∧ fl.length % cfg.ndevices = 0 ∧ t = { s1 with rng := s1.rng.split2.1, generated := s1.generated + 1 } ∧
        b.images = images g cfg s.rng.split2.2 fl ∧ b.flows = s1.outFlows ∧ b.mask = s1.mask ∧ b.files = s1.files := by
    intro s1 hm b t hbt
    obtain ⟨fl, m, h1, h2, h3⟩ := mid_ends hb hm
    obtain ⟨k1, k2, k3⟩ := ends_of_split h1 h2 hbt
    refine ⟨fl, h2, h3, k1, k2, ?_, ?_, ?_, ?_⟩
    · rw [k3, mid_rng hm]
    all_goals rw [k3]
  cases pc with
  | head => exact .inl hJ
  | zero => exact .inl hJ.1
  | fetch => exact absurd trivial ht
  | setFlows b => exact absurd trivial ht
  | setMask b => exact absurd trivial ht
  | setFiles b => exact absurd trivial ht
  | adapt => exact absurd trivial ht
  | setOut a => exact absurd trivial ht
  | setAdapted fl => exact absurd trivial ht
  | split =>
    refine .inr (.inr fun b t hbt he => ?_)
    obtain ⟨fl, c1, c2, c3, _, c5, c6, c7, c8⟩ := key _ hJ b t hbt
    exact ⟨_, _, fl, ready_ends c1 c2 he c3, c6.symm, c7.symm, c8.symm, c5, .inl (by rw [mid_rng hJ])⟩
  | make k =>
    obtain ⟨s1, hm, rfl, rfl⟩ := hJ
    refine .inr (.inr fun b t hbt he => ?_)
    obtain ⟨fl, c1, c2, c3, _, c5, c6, c7, c8⟩ := key _ hm b t hbt
    exact ⟨_, _, fl, ready_ends (s := { s1 with rng := s1.rng.split2.1 }) c1 c2 he c3, c6.symm, c7.symm, c8.symm, c5, .inr (by rw [mid_rng hm])⟩
  | bump b0 =>
    obtain ⟨s1, _, hm, _, rfl⟩ := hJ
    refine .inr (.inr fun b t hbt he => ?_)
    obtain ⟨fl, c1, c2, c3, _, c5, c6, c7, c8⟩ := key _ hm b t hbt
    exact ⟨_, _, fl, ready_ends (s := { s1 with rng := s1.rng.split2.1 }) c1 c2 he c3, c6.symm, c7.symm, c8.symm, c5, .inr (by rw [mid_rng hm])⟩
  | flags b0 => exact .inr (.inl ⟨_, n + 1, by rw [steps_add, hn]; rfl⟩)
  | done r => exact .inr (.inl ⟨r, n, hn⟩)

/-- How the key of a state goes on. -/
private theorem stopped_rng {sch : ISched S (FlowBatch F)} {g : Gen F O I} {cfg : Cfg} {s : St S F O} {pc : Pc F O I} {s' : St S F O}
    (h : Stopped sch g cfg s pc s') : s'.rng = s.rng ∨ s'.rng = s.rng.split2.1 := by
  obtain ⟨n, s1, hn, hs'⟩ := h
  have hJ := J_steps (sch := sch) (g := g) (cfg := cfg) (s0 := s) n
  rw [hn] at hJ
  have e : s'.rng = s1.rng := by
    rcases hs' with rfl | ⟨_, sc, rfl⟩ <;> rfl
  rw [e]
  cases pc with
  | head => exact .inl (congrArg St.rng hJ)
  | zero => exact .inl (congrArg St.rng hJ.1)
  | fetch => obtain ⟨rfl, _⟩ := hJ; exact .inl rfl
  | setFlows b => obtain ⟨sc, _, rfl⟩ := hJ; exact .inl rfl
  | setMask b => obtain ⟨sc, _, rfl⟩ := hJ; exact .inl rfl
  | setFiles b => obtain ⟨sc, _, rfl⟩ := hJ; exact .inl rfl
  | adapt => obtain ⟨b, sc, _, rfl⟩ := hJ; exact .inl rfl
  | setOut a => obtain ⟨b, sc, _, _, _, rfl⟩ := hJ; exact .inl rfl
  | setAdapted fl => obtain ⟨b, sc, _, _, _, rfl⟩ := hJ; exact .inl rfl
  | split => exact .inl (mid_rng hJ)
  | make k => obtain ⟨s1, hm, _, rfl⟩ := hJ; exact .inr (congrArg (fun k => (KeyTerm.split2 k).1) (mid_rng hm))
  | bump b => obtain ⟨s1, _, hm, _, rfl⟩ := hJ; exact .inr (congrArg (fun k => (KeyTerm.split2 k).1) (mid_rng hm))
  | flags b => obtain ⟨s1, _, hm, _, rfl⟩ := hJ; exact .inr (congrArg (fun k => (KeyTerm.split2 k).1) (mid_rng hm))
  | done r =>
    cases r with
    | error e => exact hJ
    | ok b => exact .inr hJ.1

/-- **C176** (keys). Whatever calls are interrupted, and wherever: the images of the batches returned are made with different keys, in the order in which they are
derived. -/
theorem C176_keys (sch : ISched S (FlowBatch F)) (g : Gen F O I) (cfg : Cfg) (s : St S F O) (bs : List (OutBatch O I)) (s' : St S F O)
    (h : History sch g cfg s bs s') :
    ∃ ks : List Nat, ks.Pairwise (· < ·) ∧ List.Forall₂ (fun k b => ∃ fl, b.images = images g cfg (advanced s.rng k).split2.2 fl) ks bs := by
  suffices ∀ (k : KeyTerm) (i : Nat), s.rng = advanced k i → ∃ ks : List Nat, (∀ j ∈ ks, i ≤ j) ∧ ks.Pairwise (· < ·) ∧
      List.Forall₂ (fun j b => ∃ fl, b.images = images g cfg (advanced k j).split2.2 fl) ks bs by
    obtain ⟨ks, _, h2, h3⟩ := this s.rng 0 rfl
    exact ⟨ks, h2, h3⟩
  induction h with
  | nil s => exact fun k i _ => ⟨[], by simp, .nil, .nil⟩
  | @batch s b s1 bs s2 he _ ih =>
    intro k i hi
    obtain ⟨n, hn⟩ := he
    have hJ := J_steps (sch := sch) (g := g) (cfg := cfg) (s0 := s) n
    rw [hn] at hJ
    obtain ⟨j1, fl, j2⟩ := hJ
    obtain ⟨ks, h1, h2, h3⟩ := ih k (i + 1) (by rw [j1, hi]; rfl)
    refine ⟨i :: ks, ?_, List.pairwise_cons.2 ⟨fun j hj => h1 j hj, h2⟩, .cons ⟨fl, by rw [j2, hi]⟩ h3⟩
    intro j hj
    rcases List.mem_cons.1 hj with rfl | hj
    · exact Nat.le_refl _
    · exact Nat.le_of_succ_le (h1 j hj)
  | @raised s e s1 bs s2 he _ ih =>
    intro k i hi
    obtain ⟨n, hn⟩ := he
    have hJ := J_steps (sch := sch) (g := g) (cfg := cfg) (s0 := s) n
    rw [hn] at hJ
    rcases (show s1.rng = s.rng ∨ s1.rng = s.rng.split2.1 from hJ) with e1 | e1
    · exact ih k i (by rw [e1, hi])
    · obtain ⟨ks, h1, h2⟩ := ih k (i + 1) (by rw [e1, hi]; rfl)
      exact ⟨ks, fun j hj => Nat.le_of_succ_le (h1 j hj), h2⟩
  | @interrupted s pc s1 bs s2 hs _ ih =>
    intro k i hi
    rcases stopped_rng hs with e1 | e1
    · exact ih k i (by rw [e1, hi])
    · obtain ⟨ks, h1, h2⟩ := ih k (i + 1) (by rw [e1, hi]; rfl)
      exact ⟨ks, fun j hj => Nat.le_of_succ_le (h1 j hj), h2⟩

/-- Keys derived by different numbers of splits are different. -/
theorem C176_keys_differ (k : KeyTerm) (i j : Nat) (h : (advanced k i).split2.2 = (advanced k j).split2.2) : i = j := by
  have hd : ∀ n, (advanced k n).depth = k.depth + n := by
    intro n
    induction n with
    | zero => rfl
    | succ n ih =>
      show (advanced k n).depth + 1 = _
      rw [ih]; omega
  have := congrArg KeyTerm.depth h
  simp only [KeyTerm.split2, KeyTerm.depth, hd] at this
  omega

/-- **C176** (recovery). Wherever a call has been interrupted, after `reset(scheduler_reset=False)` the sampler shows what a new one shows on the scheduler as it is. -/
theorem C176_recovers (sch : ISched S (FlowBatch F)) (g : Gen F O I) (cfg : Cfg) (s : St S F O) (pc : Pc F O I) (s' : St S F O) (_ : Stopped sch g cfg s pc s')
    (ops : List Op) : (run sch g cfg (.reset false :: ops) s').map (·.1) = (run sch g cfg ops (init cfg s'.sched)).map (fun q => .done :: q.1) :=
  C143_reset_self sch g cfg s' ops

/-- **C176** (refuted, too many batches). A call needs a new flow batch because `batches_per_flow_batch` batches have been made of the present one, and is interrupted while
it waits for the scheduler. The next call returns one more batch of the old flow fields, whatever the scheduler has done meanwhile. -/
theorem C176_refuted_stale (sch : ISched S (FlowBatch F)) (g : Gen F O I) (cfg : Cfg) (hb : 0 < cfg.bpfb) (s : St S F O) (flows : List F) (hc : s.cur = some flows)
    (hd : flows.length % cfg.ndevices = 0) (hg : cfg.bpfb ≤ s.generated) (he : episodeOver sch s.sched = false) (sc : S) (hsc : episodeOver sch sc = false) :
    ∃ s' b t, Stopped sch g cfg s .fetch s' ∧ s'.sched = sc ∧ Ends sch g cfg s' (.ok b) t ∧
      b.images = images g cfg s.rng.split2.2 flows ∧ b.flows = s.outFlows ∧ b.files = s.files := by
  refine ⟨{ s with generated := 0, sched := sc }, _, _, ⟨2, { s with generated := 0 }, ?_, .inr ⟨rfl, sc, rfl⟩⟩, rfl,
    ready_ends (s := { s with generated := 0, sched := sc }) hc hb hsc hd, rfl, rfl, rfl⟩
  rw [show 2 = 1 + 1 from rfl, steps_add, head_fetch (.inr hg) he]
  rfl

/-- **C176** (refuted, flow fields not adapted). A call needs a new flow batch and is interrupted before that has gone through the adapter. The next call returns images of the
flow fields as they are in the files, with the names of the new flow fields and the reported flow of the old ones. -/
theorem C176_refuted_raw (sch : ISched S (FlowBatch F)) (g : Gen F O I) (cfg : Cfg) (hb : 0 < cfg.bpfb) (s : St S F O) (flows : List F) (_ : s.cur = some flows)
    (hg : cfg.bpfb ≤ s.generated) (he : episodeOver sch s.sched = false) (b : FlowBatch F) (sc : S) (hf : sch.getBatch cfg.ffpb s.sched = some (.ok b, sc))
    (hsc : episodeOver sch sc = false) (hd : b.flows.length % cfg.ndevices = 0) :
    ∃ s' out t, Stopped sch g cfg s .adapt s' ∧ Ends sch g cfg s' (.ok out) t ∧
      out.images = images g cfg s.rng.split2.2 b.flows ∧ out.files = b.files ∧ out.flows = s.outFlows :=
  ⟨fetched s b sc, _, _, ⟨6, _, fetch_steps (.inr hg) he hf, .inl rfl⟩, ready_ends (s := fetched s b sc) rfl hb hsc hd, rfl, rfl, rfl⟩

/-- **C176** (refuted, a batch lost). A call fetches the last flow batch of an episode and is interrupted before it returns. The next call raises `EpisodeEnd`: nobody gets
to see that flow batch. -/
theorem C176_refuted_lost (sch : ISched S (FlowBatch F)) (g : Gen F O I) (cfg : Cfg) (s : St S F O) (hn : s.cur = none ∨ cfg.bpfb ≤ s.generated)
    (he : episodeOver sch s.sched = false) (b : FlowBatch F) (sc : S) (hf : sch.getBatch cfg.ffpb s.sched = some (.ok b, sc)) (hsc : episodeOver sch sc = true)
    (hd : b.flows.length % cfg.ndevices = 0) :
    ∃ s', Stopped sch g cfg s .split s' ∧ Ends sch g cfg s' (.error .episodeEnd) s' := by
  have hn' : Needs cfg s := by
    rcases hn with h | h
    · exact .inl (by rw [h]; rfl)
    · exact .inr h
  exact ⟨adapted g cfg s b sc, ⟨6 + 3, _, by rw [steps_add, fetch_steps hn' he hf, adapt_steps hd], .inl rfl⟩, 1, head_over (s := adapted g cfg s b sc) hsc⟩

/-- A scheduler that counts, gives two flow fields a time and has episodes of five; the adapter doubles. -/
private def exSch : ISched Nat (FlowBatch Nat) where
  getBatch n k := some (.ok { flows := (List.range n).map (· + 10 * k), mask := none, files := some [toString k] }, k + 1)
  reset _ := .ok 0
  episodic := some (fun k => 5 - k, fun _ => .ok 0)

private def exGen : Gen Nat Nat Nat := ⟨fun f => (f + 1000, 2 * f), fun _ _ i f => 100 * i + f⟩

private def exCfg : Cfg := { batchSize := 4, ndevices := 1, bpfb := 1, ffpb := 2, seed := 7 }

private def exSt : St Nat Nat Nat := { sched := 1, rng := .seed 7, cur := some [0, 2], outFlows := [1000, 1001, 1000, 1001], mask := none, files := some ["0"], generated := 1 }

/-- The images of the three ways to be interrupted, one after the other: the old flow fields, the new ones unadapted, and those a call that is not interrupted returns. -/
example : (∃ s', Stopped exSch exGen exCfg exSt .adapt s') ∧
    Sampler.next exSch exGen exCfg { exSt with generated := 0 } =
      some (.ok { images := [0, 102, 200, 302], flows := [1000, 1001, 1000, 1001], mask := none, files := some ["0"], done := some [false, false, false, false] },
        { exSt with generated := 1, rng := (KeyTerm.seed 7).split2.1 }) ∧
    Sampler.next exSch exGen exCfg (fetched exSt { flows := [10, 11], mask := none, files := some ["1"] } 2) =
      some (.ok { images := [10, 111, 210, 311], flows := [1000, 1001, 1000, 1001], mask := none, files := some ["1"], done := some [false, false, false, false] },
        { fetched exSt { flows := [10, 11], mask := none, files := some ["1"] } 2 with generated := 1, rng := (KeyTerm.seed 7).split2.1 }) ∧
    (Sampler.next exSch exGen exCfg exSt).map (fun q => q.1.toOption.map (fun b => (b.images, b.flows))) = some (some ([20, 122, 220, 322], [1010, 1011, 1010, 1011])) := by
  refine ⟨⟨fetched exSt { flows := [10, 11], mask := none, files := some ["1"] } 2, 6, _, rfl, .inl rfl⟩, ?_, ?_, ?_⟩ <;> decide +kernel

/-- The hypotheses of the partial theorem are met after the flow fields have been adapted, and the next call returns what the interrupted one would have returned. -/
example : ∃ s', Stopped exSch exGen exCfg exSt .split s' ∧ ¬ Torn (.split : Pc Nat Nat Nat) ∧ episodeOver exSch s'.sched = false ∧
    (Sampler.next exSch exGen exCfg s').map (·.1) = (Sampler.next exSch exGen exCfg exSt).map (·.1) :=
  ⟨adapted exGen exCfg exSt { flows := [10, 11], mask := none, files := some ["1"] } 2, ⟨9, _, rfl, .inl rfl⟩, fun h => h, rfl, rfl⟩

/-- A history with an interruption: two batches, made with the first and the third key. -/
example : ∃ bs s', History exSch exGen exCfg exSt bs s' ∧ bs.length = 2 :=
  ⟨_, _, .batch ⟨13, rfl⟩ (.interrupted (pc := .make _) ⟨10, _, rfl, .inl rfl⟩ (.batch ⟨5, rfl⟩ (.nil _))), rfl⟩

end Verif.InterruptSampler
