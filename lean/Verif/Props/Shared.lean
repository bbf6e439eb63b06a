import Verif.Spec.Shared
import Verif.Proofs.Prefetch
import Verif.Props.Prefetch
/-!
# C163: several threads share a prefetching scheduler
-/

namespace Verif.Prefetch
open Verif
variable {S B : Type} {p : Src S B} {cfg : Cfg}

/-! ## Runs -/

theorem grun_cons {a as} {s s2 : GSt S B} {outs} (h : grun p cfg (a :: as) s = some (s2, outs)) :
    ∃ s1 o os, gact p cfg a s = some (s1, o) ∧ grun p cfg as s1 = some (s2, os) ∧ outs = o :: os := by
  rw [grun] at h
  cases ha : gact p cfg a s with
  | none => rw [ha] at h; simp at h
  | some q =>
    obtain ⟨s1, o⟩ := q
    rw [ha] at h
    simp only at h
    cases hr : grun p cfg as s1 with
    | none => rw [hr] at h; simp at h
    | some r =>
      obtain ⟨s3, os⟩ := r
      rw [hr] at h
      simp only [Option.some.injEq, Prod.mk.injEq] at h
      obtain ⟨rfl, rfl⟩ := h
      exact ⟨s1, o, os, rfl, hr, rfl⟩

theorem grun_append {as bs : List GAction} {s s1 s2 : GSt S B} {o1 o2} (h1 : grun p cfg as s = some (s1, o1)) (h2 : grun p cfg bs s1 = some (s2, o2)) :
    grun p cfg (as ++ bs) s = some (s2, o1 ++ o2) := by
  induction as generalizing s o1 with
  | nil => simp [grun] at h1; obtain ⟨rfl, rfl⟩ := h1; simpa using h2
  | cons a as ih =>
    obtain ⟨s', o, os, ha, hr, rfl⟩ := grun_cons h1
    rw [List.cons_append, grun, ha]
    simp only
    rw [ih hr]
    rfl

/-- An invariant that every allowed step keeps holds after every run. -/
theorem grun_invariant (I : List (GOut B) → GSt S B → Prop) (ok : GAction → Prop)
    (hstep : ∀ hist s a s' o, I hist s → ok a → gact p cfg a s = some (s', o) → I (hist ++ [o]) s')
    {as : List GAction} {hist : List (GOut B)} {s s' : GSt S B} {outs} (h0 : I hist s) (hok : ∀ a ∈ as, ok a) (h : grun p cfg as s = some (s', outs)) :
    I (hist ++ outs) s' := by
  induction as generalizing s hist outs with
  | nil => simp [grun] at h; obtain ⟨rfl, rfl⟩ := h; simpa using h0
  | cons a as ih =>
    obtain ⟨s1, o, os, ha, hr, rfl⟩ := grun_cons h
    have := ih (hstep _ _ _ _ _ h0 (hok a (by simp)) ha) (fun a ha => hok a (by simp [ha])) hr
    simpa using this

@[simp] theorem at_main (s : GSt S B) (i pc) : (s.at i pc).main = s.main := rfl
@[simp] theorem at_flag (s : GSt S B) (i pc) : (s.at i pc).flag = s.flag := rfl
theorem at_pcs (s : GSt S B) (i pc j) : (s.at i pc).pcs j = if j = i then pc else s.pcs j := rfl

theorem taken_append (xs ys : List (GOut B)) : taken (xs ++ ys) = taken xs ++ taken ys := by simp [taken]
theorem takenBy_append (i) (xs ys : List (GOut B)) : takenBy i (xs ++ ys) = takenBy i xs ++ takenBy i ys := by simp [takenBy]
theorem answers_append (i) (xs ys : List (GOut B)) : answers i (xs ++ ys) = answers i xs ++ answers i ys := by simp [answers]

/-- What every step is, as far as the queue and the worker are concerned. -/
theorem gact_acc {src0 : S} {lossy : Prop} {hist : List (GOut B)} {s s1 : GSt S B} {a o} (h : Acc p cfg src0 lossy (taken hist) s.main)
    (hl : a = .worker .eosTimeout → lossy) (ha : gact p cfg a s = some (s1, o)) : Acc p cfg src0 lossy (taken (hist ++ [o])) s1.main := by
  rw [taken_append]
  have quiet : ∀ o : GOut B, taken [o] = [] → Acc p cfg src0 lossy (taken hist) s1.main → Acc p cfg src0 lossy (taken hist ++ taken [o]) s1.main := by
    intro o e h; rwa [e, List.append_nil]
  cases a with
  | worker a =>
    simp only [gact] at ha
    split at ha
    · rename_i hw
      cases hact : act p cfg a s.main with
      | none => rw [hact] at ha; simp at ha
      | some r =>
        rw [hact] at ha
        simp only [Option.map_some, Option.some.injEq, Prod.mk.injEq] at ha
        obtain ⟨rfl, rfl⟩ := ha
        have hq : ∃ outs : List (Out B), leftQueue outs = taken hist :=
          ⟨(taken hist).map (fun x => Out.removed x), by simp [leftQueue, List.filterMap_map, Function.comp_def]⟩
        obtain ⟨outs, ho⟩ := hq
        have hs := Acc.step (hist := outs) (cfg := cfg) (by rw [ho]; exact h) (by cases a <;> first | trivial | simp [Action.isWorker] at hw)
          (fun he => hl (by rw [he])) hact
        rw [leftQueue_append, ho] at hs
        have : leftQueue [r.2] = [] := by
          obtain ⟨s2, o2⟩ := r
          cases a <;> simp [Action.isWorker] at hw <;> simp only [act] at hact <;> (try unfold fetchStep at hact) <;> (repeat' split at hact) <;>
            simp at hact <;> obtain ⟨rfl, rfl⟩ := hact <;> rfl
        rw [this] at hs
        exact quiet _ rfl (by simpa using hs)
    · simp at ha
  | call i n =>
    simp only [gact] at ha
    split at ha <;> simp at ha
    split at ha
    · obtain ⟨rfl, rfl⟩ := ha; exact quiet _ rfl h
    · obtain ⟨rfl, rfl⟩ := ha; exact quiet _ rfl h
  | timeout i =>
    simp only [gact] at ha
    split at ha <;> simp at ha
    obtain ⟨rfl, rfl⟩ := ha
    exact quiet _ rfl h
  | step i =>
    simp only [gact, gstep] at ha
    cases hpc : s.pcs i <;> rw [hpc] at ha <;> simp only at ha
    · simp at ha
    · simp at ha; obtain ⟨rfl, rfl⟩ := ha; refine quiet _ rfl ?_; split <;> exact h
    · simp at ha; obtain ⟨rfl, rfl⟩ := ha; exact quiet _ rfl h
    · split at ha <;> simp at ha <;> obtain ⟨rfl, rfl⟩ := ha
      · exact quiet _ rfl h
      · exact quiet _ rfl h.startWorker
    · split at ha
      · split at ha <;> simp at ha <;> obtain ⟨rfl, rfl⟩ := ha <;> exact quiet _ rfl h
      · simp at ha; obtain ⟨rfl, rfl⟩ := ha; exact quiet _ rfl h
    · split at ha <;> simp at ha
      rename_i x q hq
      obtain ⟨rfl, rfl⟩ := ha
      exact h.consume hq rfl rfl rfl rfl rfl
    · simp at ha; obtain ⟨rfl, rfl⟩ := ha; exact quiet _ rfl h
    · split at ha <;> simp at ha <;> obtain ⟨rfl, rfl⟩ := ha <;> exact quiet _ rfl (h.congr rfl rfl rfl rfl rfl)

theorem grun_acc {src0 : S} {as : List GAction} {s : GSt S B} {outs} (h : grun p cfg as (ginit src0) = some (s, outs)) :
    Acc p cfg src0 (.worker .eosTimeout ∈ as) (taken outs) s.main := by
  have := grun_invariant (p := p) (cfg := cfg) (fun hist s => Acc p cfg src0 (.worker .eosTimeout ∈ as) (taken hist) s.main)
    (fun a => a ∈ as) (fun _ _ _ _ _ h hok ha => gact_acc h (fun e => e ▸ hok) ha) (s := ginit src0) (hist := [])
    ⟨[], src0, 0, ⟨.nil _ _, Nat.zero_le _⟩, rfl, rfl, rfl, rfl, rfl, rfl⟩ (fun a ha => ha) h
  simpa using this

theorem gact_hand {hist : List (GOut B)} {s s1 : GSt S B} {a o} (i : Nat) (h : answers i hist ++ inHand (s.pcs i) = takenBy i hist)
    (ha : gact p cfg a s = some (s1, o)) : answers i (hist ++ [o]) ++ inHand (s1.pcs i) = takenBy i (hist ++ [o]) := by
  rw [answers_append, takenBy_append]
  cases a with
  | worker a =>
    simp only [gact] at ha
    split at ha
    · cases hact : act p cfg a s.main with
      | none => rw [hact] at ha; simp at ha
      | some r =>
        rw [hact] at ha
        simp only [Option.map_some, Option.some.injEq, Prod.mk.injEq] at ha
        obtain ⟨rfl, rfl⟩ := ha
        simpa [answers, takenBy] using h
    · simp at ha
  | call j n =>
    simp only [gact] at ha
    split at ha <;> simp at ha
    rename_i hpc
    split at ha <;> obtain ⟨rfl, rfl⟩ := ha
    · by_cases hj : i = j
      · subst hj; rw [hpc] at h; simpa [answers, takenBy, at_pcs, inHand] using h
      · simpa [answers, takenBy, at_pcs, hj] using h
    · simpa [answers, takenBy] using h
  | timeout j =>
    simp only [gact] at ha
    split at ha <;> simp at ha
    rename_i hpc _
    obtain ⟨rfl, rfl⟩ := ha
    by_cases hj : i = j
    · subst hj; rw [hpc] at h; simpa [answers, takenBy, at_pcs, inHand] using h
    · simpa [answers, takenBy, at_pcs, hj] using h
  | step j =>
    simp only [gact, gstep] at ha
    by_cases hj : i = j
    · subst hj
      cases hpc : s.pcs i <;> rw [hpc] at ha h <;> simp only at ha
      · simp at ha
      · simp at ha; obtain ⟨rfl, rfl⟩ := ha; split <;> simpa [answers, takenBy, at_pcs, inHand] using h
      · simp at ha; obtain ⟨rfl, rfl⟩ := ha; simpa [answers, takenBy, at_pcs, inHand] using h
      · split at ha <;> simp at ha <;> obtain ⟨rfl, rfl⟩ := ha <;> simpa [answers, takenBy, at_pcs, inHand] using h
      · split at ha
        · split at ha <;> simp at ha <;> obtain ⟨rfl, rfl⟩ := ha <;> simpa [answers, takenBy, at_pcs, inHand] using h
        · simp at ha; obtain ⟨rfl, rfl⟩ := ha; simpa [answers, takenBy, at_pcs, inHand] using h
      · split at ha <;> simp at ha
        obtain ⟨rfl, rfl⟩ := ha
        simpa [answers, takenBy, at_pcs, inHand] using h
      · simp at ha; obtain ⟨rfl, rfl⟩ := ha; simpa [answers, takenBy, at_pcs, inHand] using h
      · split at ha <;> simp at ha <;> obtain ⟨rfl, rfl⟩ := ha <;> simpa [answers, takenBy, at_pcs, inHand] using h
    · have hj' : j ≠ i := fun e => hj e.symm
      cases hpc : s.pcs j <;> rw [hpc] at ha <;> simp only at ha
      · simp at ha
      · simp at ha; obtain ⟨rfl, rfl⟩ := ha; split <;> simpa [answers, takenBy, at_pcs, hj] using h
      · simp at ha; obtain ⟨rfl, rfl⟩ := ha; simpa [answers, takenBy, at_pcs, hj] using h
      · split at ha <;> simp at ha <;> obtain ⟨rfl, rfl⟩ := ha <;> simpa [answers, takenBy, at_pcs, hj] using h
      · split at ha
        · split at ha <;> simp at ha <;> obtain ⟨rfl, rfl⟩ := ha <;> simpa [answers, takenBy, at_pcs, hj] using h
        · simp at ha; obtain ⟨rfl, rfl⟩ := ha; simpa [answers, takenBy, at_pcs, hj] using h
      · split at ha <;> simp at ha
        obtain ⟨rfl, rfl⟩ := ha
        simpa [answers, takenBy, at_pcs, hj, hj'] using h
      · simp at ha; obtain ⟨rfl, rfl⟩ := ha; simpa [answers, takenBy, at_pcs, hj] using h
      · split at ha <;> simp at ha <;> obtain ⟨rfl, rfl⟩ := ha <;> simpa [answers, takenBy, at_pcs, hj, hj'] using h

/-- **C163** (partial): any number of threads call `get_batch` of one prefetching scheduler. Under every order of their steps and of the worker's,
the items taken from the queue are, in order, the batches of the wrapped scheduler followed by one signal at its end, up to where they have got
(one batch may be missing if the `put` of the signal timed out, as in C30); and each thread has been answered with the items it took, in order,
but for the one it may have in hand. So each batch goes to one thread, and once. Missing: `RuntimeError` in the first calls
(`C163_refuted_start`), the end of the stream (`C163_told_once`) and episodes (`C163_refuted_episodes`). -/
theorem C163_each_once_partial (p : Src S B) (cfg : Cfg) (src0 : S) (as : List GAction) (s : GSt S B) (outs : List (GOut B))
    (h : grun p cfg as (ginit src0) = some (s, outs)) :
    (∃ bs src k, Produces p src0 0 bs src k ∧
      (taken outs <+: bs.map (fun q => some q.2) ∨ (p.getBatch src).1 = .error .stopIteration ∧
        (taken outs = bs.map (fun q => some q.2) ++ [none] ∨
          .worker .eosTimeout ∈ as ∧ ∃ i, i < bs.length ∧ bs.length ≤ i + max 1 cfg.bufferSize ∧ taken outs <+: (bs.map (fun q => some q.2)).eraseIdx i ++ [none]))) ∧
    ∀ i, answers i outs ++ inHand (s.pcs i) = takenBy i outs := by
  refine ⟨?_, fun i => ?_⟩
  · obtain ⟨bs, src, k, ⟨hp, _⟩, hi⟩ := grun_acc h
    refine ⟨bs, src, k, hp, ?_⟩
    have close : ((p.getBatch src).1 = .error .stopIteration ∧ s.main.started = true ∧
        (taken outs ++ s.main.queue = bs.map (fun q => some q.2) ++ [none] ∨
          .worker .eosTimeout ∈ as ∧ ∃ i, i < bs.length ∧ bs.length ≤ i + max 1 cfg.bufferSize ∧
            taken outs ++ s.main.queue = (bs.map (fun q => some q.2)).eraseIdx i ++ [none])) →
        (taken outs <+: bs.map (fun q => some q.2) ∨ (p.getBatch src).1 = .error .stopIteration ∧
        (taken outs = bs.map (fun q => some q.2) ++ [none] ∨
          .worker .eosTimeout ∈ as ∧ ∃ i, i < bs.length ∧ bs.length ≤ i + max 1 cfg.bufferSize ∧ taken outs <+: (bs.map (fun q => some q.2)).eraseIdx i ++ [none])) := by
      rintro ⟨h1, _, h2 | ⟨h2, i, l1, l2, h3⟩⟩
      · rcases List.eq_nil_or_concat s.main.queue with hq | ⟨q, x, hq⟩
        · exact .inr ⟨h1, .inl (by rw [hq] at h2; simpa using h2)⟩
        · rw [hq, List.concat_eq_append, ← List.append_assoc] at h2
          exact .inl ⟨q, List.append_inj_left' h2 rfl⟩
      · exact .inr ⟨h1, .inr ⟨h2, i, l1, l2, ⟨_, h3⟩⟩⟩
    cases hw : s.main.w <;> rw [hw] at hi <;> simp only at hi
    · exact .inl (by rw [hi.2.2.2.1]; exact List.nil_prefix)
    · exact .inl ⟨_, hi.2.2.2⟩
    · exact .inl ⟨_, hi.2.2.2⟩
    · exact .inl ⟨_, (List.append_assoc _ _ _).symm.trans hi.2.2.2⟩
    · exact .inl ⟨_, hi.2.2⟩
    · exact .inl ⟨_, hi.2.2.2⟩
    · exact close hi
    · exact close hi
    · exact .inl ⟨_, hi.2.2.1⟩
  · have := grun_invariant (p := p) (cfg := cfg) (fun hist s => answers i hist ++ inHand (s.pcs i) = takenBy i hist) (fun _ => True)
      (fun _ _ _ _ _ h _ ha => gact_hand i h ha) (s := ginit src0) (hist := []) rfl (fun _ _ => trivial) h
    simpa using this


/-! ## The start -/

/-- The thread has been started and no other can try to. -/
def Settled (s : GSt S B) : Prop := s.flag = true ∧ s.main.started = true ∧ ∀ i, s.pcs i ≠ .mark ∧ s.pcs i ≠ .start

theorem worker_started {a : Action} {s s1 : St S B} {o} (hw : a.isWorker = true) (h : act p cfg a s = some (s1, o)) : s1.started = s.started := by
  cases a <;> simp [Action.isWorker] at hw <;> simp only [act] at h <;> (try unfold fetchStep at h) <;> (repeat' split at h) <;>
    simp at h <;> obtain ⟨rfl, rfl⟩ := h <;> rfl

theorem gact_worker {a : Action} {s s1 : GSt S B} {o} (h : gact p cfg (.worker a) s = some (s1, o)) :
    s1.pcs = s.pcs ∧ s1.flag = s.flag ∧ s1.main.started = s.main.started ∧ o = .tau := by
  simp only [gact] at h
  split at h
  · rename_i hw
    cases hact : act p cfg a s.main with
    | none => rw [hact] at h; simp at h
    | some r =>
      rw [hact] at h
      simp only [Option.map_some, Option.some.injEq, Prod.mk.injEq] at h
      obtain ⟨rfl, rfl⟩ := h
      exact ⟨rfl, rfl, worker_started hw hact, rfl⟩
  · simp at h

theorem settled_step {s s1 : GSt S B} {a o} (h : Settled s) (ha : gact p cfg a s = some (s1, o)) : Settled s1 ∧ ∀ i, o ≠ .runtimeError i := by
  obtain ⟨h1, h2, h3⟩ := h
  have put : ∀ (i : Nat) (pc : GPc B), pc ≠ .mark → pc ≠ .start → ∀ j, (if j = i then pc else s.pcs j) ≠ .mark ∧ (if j = i then pc else s.pcs j) ≠ .start := by
    intro i pc e1 e2 j
    split
    · exact ⟨e1, e2⟩
    · exact h3 j
  cases a with
  | worker a =>
    obtain ⟨e1, e2, e3, rfl⟩ := gact_worker ha
    exact ⟨⟨by rw [e2, h1], by rw [e3, h2], by rw [e1]; exact h3⟩, by simp⟩
  | call i n =>
    simp only [gact] at ha
    split at ha <;> simp at ha
    split at ha <;> obtain ⟨rfl, rfl⟩ := ha
    · exact ⟨⟨h1, h2, put i _ (by simp) (by simp)⟩, by simp⟩
    · exact ⟨⟨h1, h2, h3⟩, by simp⟩
  | timeout i =>
    simp only [gact] at ha
    split at ha <;> simp at ha
    obtain ⟨rfl, rfl⟩ := ha
    exact ⟨⟨h1, h2, put i _ (by simp) (by simp)⟩, by simp⟩
  | step i =>
    simp only [gact, gstep] at ha
    cases hpc : s.pcs i <;> rw [hpc] at ha <;> simp only at ha
    · simp at ha
    · simp [h1] at ha; obtain ⟨rfl, rfl⟩ := ha; exact ⟨⟨h1, h2, put i _ (by simp) (by simp)⟩, by simp⟩
    · exact ((h3 i).1 hpc).elim
    · exact ((h3 i).2 hpc).elim
    · split at ha
      · split at ha <;> simp at ha <;> obtain ⟨rfl, rfl⟩ := ha <;> exact ⟨⟨h1, h2, put i _ (by simp) (by simp)⟩, by simp⟩
      · simp at ha; obtain ⟨rfl, rfl⟩ := ha; exact ⟨⟨h1, h2, put i _ (by simp) (by simp)⟩, by simp⟩
    · split at ha <;> simp at ha
      obtain ⟨rfl, rfl⟩ := ha
      exact ⟨⟨h1, h2, put i _ (by simp) (by simp)⟩, by simp⟩
    · simp at ha; obtain ⟨rfl, rfl⟩ := ha; exact ⟨⟨h1, h2, put i _ (by simp) (by simp)⟩, by simp⟩
    · split at ha <;> simp at ha <;> obtain ⟨rfl, rfl⟩ := ha <;> exact ⟨⟨h1, h2, put i _ (by simp) (by simp)⟩, by simp⟩

/-- While one thread alone uses the scheduler, until `get_batch` has answered it. -/
def Alone1 (i : Nat) (hist : List (GOut B)) (s : GSt S B) : Prop :=
  ((∀ o ∈ hist, o.isAnswer = false) ∧ (∀ j, j ≠ i → s.pcs j = .out) ∧ s.main.started = false ∧
    (s.flag = false ∧ (s.pcs i = .out ∨ s.pcs i = .started ∨ s.pcs i = .mark) ∨ s.flag = true ∧ s.pcs i = .start)) ∨ Settled s

theorem alone_step (i : Nat) {hist : List (GOut B)} {s s1 : GSt S B} {a o} (h : Alone1 i hist s) (hok : OnlyThread i a)
    (ha : gact p cfg a s = some (s1, o)) : Alone1 i (hist ++ [o]) s1 := by
  rcases h with ⟨h0, h1, h2, h3⟩ | h
  swap
  · exact .inr (settled_step h ha).1
  have other : ∀ (pc : GPc B) j, j ≠ i → (if j = i then pc else s.pcs j) = .out := by
    intro pc j hj; rw [if_neg hj]; exact h1 j hj
  have more : ∀ o : GOut B, o.isAnswer = false → ∀ o' ∈ hist ++ [o], o'.isAnswer = false := by
    intro o ho o' h'
    rcases List.mem_append.mp h' with h' | h'
    · exact h0 _ h'
    · rw [List.mem_singleton.mp h']; exact ho
  cases a with
  | worker a =>
    obtain ⟨e1, e2, e3, rfl⟩ := gact_worker ha
    refine .inl ⟨more _ rfl, by rw [e1]; exact h1, by rw [e3]; exact h2, by rw [e1, e2]; exact h3⟩
  | call j n =>
    obtain rfl : j = i := hok
    simp only [gact] at ha
    split at ha <;> simp at ha
    rename_i hpc
    have hf : s.flag = false := by
      rcases h3 with ⟨h3, _⟩ | ⟨_, h3⟩
      · exact h3
      · rw [hpc] at h3; simp at h3
    split at ha <;> obtain ⟨rfl, rfl⟩ := ha
    · exact .inl ⟨more _ rfl, other _, h2, .inl ⟨hf, .inr (.inl (by simp [at_pcs]))⟩⟩
    · exact .inl ⟨more _ rfl, h1, h2, h3⟩
  | timeout j =>
    obtain rfl : j = i := hok
    simp only [gact] at ha
    split at ha <;> simp at ha
    rename_i hpc _
    rcases h3 with ⟨_, h3 | h3 | h3⟩ | ⟨_, h3⟩ <;> rw [hpc] at h3 <;> simp at h3
  | step j =>
    obtain rfl : j = i := hok
    simp only [gact, gstep] at ha
    rcases h3 with ⟨hf, h3 | h3 | h3⟩ | ⟨hf, h3⟩ <;> rw [h3] at ha <;> simp only at ha
    · simp at ha
    · simp [hf] at ha; obtain ⟨rfl, rfl⟩ := ha
      exact .inl ⟨more _ rfl, other _, h2, .inl ⟨hf, .inr (.inr (by simp [at_pcs]))⟩⟩
    · simp at ha; obtain ⟨rfl, rfl⟩ := ha
      exact .inl ⟨more _ rfl, other _, h2, .inr ⟨rfl, by simp [at_pcs]⟩⟩
    · rw [if_neg (by simp [h2])] at ha; simp at ha; obtain ⟨rfl, rfl⟩ := ha
      refine .inr ⟨hf, by simp [startWorker, h2], fun k => ?_⟩
      simp only [at_pcs]
      split
      · simp
      · rename_i hk; rw [h1 k hk]; simp

/-- **C163**, the start: if one thread alone has called `get_batch` until it was answered, with a batch or anything but `ValueError`, no thread
is ever answered with `RuntimeError` afterwards. -/
theorem C163_started_once (p : Src S B) (cfg : Cfg) (src0 : S) (i : Nat) (before as : List GAction) (s s' : GSt S B) (outs0 outs : List (GOut B))
    (h0 : grun p cfg before (ginit src0) = some (s, outs0)) (hi : ∀ a ∈ before, OnlyThread i a) (hans : ∃ o ∈ outs0, o.isAnswer = true)
    (h : grun p cfg as s = some (s', outs)) (j : Nat) : .runtimeError j ∉ outs0 ++ outs := by
  have h1 := grun_invariant (p := p) (cfg := cfg) (fun hist s => Alone1 i hist s ∧ ∀ j, .runtimeError j ∉ hist) (OnlyThread i)
    (fun hist s a s' o h hok ha => ⟨alone_step i h.1 hok ha, fun j hc => by
      rcases List.mem_append.mp hc with hc | hc
      · exact h.2 j hc
      · have hoj := List.mem_singleton.mp hc
        subst hoj
        rcases h.1 with ⟨_, hout, hns, hpc⟩ | hset
        · cases a with
          | worker a => have := (gact_worker ha).2.2.2; simp at this
          | call k n => simp only [gact] at ha; split at ha <;> simp at ha; split at ha <;> simp at ha
          | timeout k => simp only [gact] at ha; split at ha <;> simp at ha
          | step k =>
            obtain rfl : k = i := hok
            simp only [gact, gstep] at ha
            rcases hpc with ⟨hf, h3 | h3 | h3⟩ | ⟨hf, h3⟩ <;> rw [h3] at ha <;> simp [hns] at ha
        · exact (settled_step hset ha).2 j rfl⟩)
    (s := ginit src0) (hist := []) ⟨.inl ⟨by simp, fun _ _ => rfl, rfl, .inl ⟨rfl, .inl rfl⟩⟩, by simp⟩ hi h0
  rw [List.nil_append] at h1
  have hset : Settled s := by
    rcases h1.1 with ⟨hn, _⟩ | hset
    · obtain ⟨o, ho, ho'⟩ := hans
      rw [hn o ho] at ho'; simp at ho'
    · exact hset
  have h2 := grun_invariant (p := p) (cfg := cfg) (fun hist s => Settled s ∧ .runtimeError j ∉ hist) (fun _ => True)
    (fun hist s a s' o h _ ha => ⟨(settled_step h.1 ha).1, fun hc => by
      rcases List.mem_append.mp hc with hc | hc
      · exact h.2 hc
      · exact (settled_step h.1 ha).2 j (List.mem_singleton.mp hc).symm⟩)
    (hist := outs0) ⟨hset, h1.2 j⟩ (fun _ _ => trivial) h
  exact h2.2

/-- **C163** fails for threads that begin at the same time: both find the worker thread not started, and the second to start it is answered with
`RuntimeError`, which has nothing to do with the data. -/
theorem C163_refuted_start : ∃ (as : List GAction) (s : GSt Nat Nat), grun demoSrc ⟨4, 2⟩ as (ginit 0) =
    some (s, [.tau, .tau, .tau, .tau, .tau, .tau, .tau, .runtimeError 1]) :=
  ⟨[.call 0 4, .call 1 4, .step 0, .step 1, .step 0, .step 1, .step 0, .step 1], _, rfl⟩

/-! ## The end -/

/-- **C163**, the end of the stream: once one thread has taken the signal, no thread ever takes anything from the queue: one thread at most is told
of the end, and every other call of `get_batch` is answered when its timeout has passed, not before. -/
theorem C163_told_once (p : Src S B) (cfg : Cfg) (src0 : S) (before as : List GAction) (s s' : GSt S B) (outs0 outs : List (GOut B))
    (h0 : grun p cfg before (ginit src0) = some (s, outs0)) (hend : none ∈ taken outs0) (h : grun p cfg as s = some (s', outs)) :
    taken outs = [] ∧ ∃ batches : List B, taken outs0 = batches.map some ++ [none] := by
  have hrun := grun_append h0 h
  have main : ∀ (as : List GAction) (s : GSt S B) (outs : List (GOut B)), grun p cfg as (ginit src0) = some (s, outs) → none ∈ taken outs →
      ∃ items : List (Option B), none ∉ items ∧ taken outs = items ++ [none] := by
    intro as s outs h hm
    obtain ⟨⟨bs, src, k, _, hc⟩, _⟩ := C163_each_once_partial p cfg src0 as s outs h
    have hnone : none ∉ bs.map (fun q => some q.2) := by simp
    rcases hc with hc | ⟨_, hc | ⟨_, i, _, _, hc⟩⟩
    · exact (hnone (hc.subset hm)).elim
    · exact ⟨_, hnone, hc⟩
    · have hn2 : none ∉ (bs.map (fun q => some q.2)).eraseIdx i := fun h => hnone ((List.eraseIdx_sublist _ _).subset h)
      refine ⟨_, hn2, ?_⟩
      obtain ⟨t, ht⟩ := hc
      rcases List.eq_nil_or_concat t with hq | ⟨q, x, hq⟩
      · rw [hq] at ht; simpa using ht
      · rw [hq, List.concat_eq_append, ← List.append_assoc] at ht
        exact (hn2 (List.append_inj_left' ht rfl ▸ List.mem_append_left _ hm)).elim
  obtain ⟨i1, n1, e1⟩ := main _ _ _ h0 hend
  obtain ⟨i2, n2, e2⟩ := main _ _ _ hrun (by rw [taken_append]; exact List.mem_append_left _ hend)
  constructor
  · rw [taken_append, e1] at e2
    rcases List.eq_nil_or_concat (taken outs) with hq | ⟨q, x, hq⟩
    · exact hq
    · rw [hq, List.concat_eq_append, ← List.append_assoc] at e2
      exact (n2 (List.append_inj_left' e2 rfl ▸ by simp)).elim
  · have hb : ∀ l : List (Option B), none ∉ l → ∃ bs : List B, l = bs.map some := by
      intro l
      induction l with
      | nil => exact fun _ => ⟨[], rfl⟩
      | cons x l ih =>
        intro hn
        cases x with
        | none => simp at hn
        | some b =>
          obtain ⟨bs, rfl⟩ := ih (fun h => hn (List.mem_cons_of_mem _ h))
          exact ⟨b :: bs, rfl⟩
    obtain ⟨bs, rfl⟩ := hb i1 n1
    exact ⟨bs, e1⟩

/-- **C163** fails for the end of the stream: with three batches for two threads, the first thread to ask for a fourth one is told that there is none; the
second waits, with nobody left to answer it, until its timeout has passed. -/
theorem C163_refuted_end : ∃ (as : List GAction) (s : GSt Nat Nat) (outs : List (GOut Nat)), grun demoSrc ⟨4, 4⟩ as (ginit 0) = some (s, outs) ∧
    taken outs = [some 0, some 1, some 2, none] ∧ .stop 0 false ∈ outs ∧ s.pcs 1 = .wait ∧ s.main.w = .exited ∧
    (∀ a, a.moves = true → gact demoSrc ⟨4, 4⟩ a s = none) := by
  refine ⟨[.call 0 4, .step 0, .step 0, .step 0, .step 0] ++ [.check, .fetch, .put, .check, .fetch, .put, .check, .fetch, .put, .check, .fetch, .eosPut, .eosStop].map .worker ++
    [.step 0, .step 0, .step 0, .call 1 4, .step 1, .step 1, .step 1, .step 1, .step 1, .call 0 4, .step 0, .step 0, .step 0, .step 0, .step 0,
     .call 0 4, .step 0, .step 0, .call 1 4, .step 1, .step 1, .step 0, .step 0, .step 0], _, _, rfl, rfl, by decide, rfl, rfl, ?_⟩
  intro a ha
  cases a with
  | worker a => cases a <;> rfl
  | call i n => simp [GAction.moves] at ha
  | timeout i => simp [GAction.moves] at ha
  | step i =>
    simp only [gact, gstep]
    have : ∀ i, 2 ≤ i → ∀ (s : GSt Nat Nat), s.pcs i = .out → gstep demoSrc i s = none := by
      intro i _ s h; simp [gstep, h]
    match i with
    | 0 => rfl
    | 1 => rfl
    | i + 2 => rfl

/-! ## Waiting -/

/-- Whoever has got past `_start_worker` has left a thread that has been started, or is about to be. -/
def Going (s : GSt S B) : Prop :=
  (s.flag = true → s.main.started = true ∨ ∃ j, s.pcs j = .start) ∧
  ∀ i, s.pcs i ≠ .out → s.pcs i ≠ .started → s.pcs i ≠ .mark → s.flag = true

theorem going_step {s s1 : GSt S B} {a o} (h : Going s) (ha : gact p cfg a s = some (s1, o)) : Going s1 := by
  obtain ⟨h1, h2⟩ := h
  -- a thread that is not at `start` goes on
  have move : ∀ (i : Nat) (pc : GPc B) (s1 : GSt S B), s.pcs i ≠ .start → (pc = .out ∨ pc = .started ∨ pc = .mark ∨ s.flag = true) →
      s1.flag = s.flag → s1.main.started = s.main.started → s1.pcs = (s.at i pc).pcs → Going s1 := by
    intro i pc s1 hi hpc hf hm hp
    refine ⟨fun hfl => ?_, fun j => ?_⟩
    · rw [hf] at hfl
      rcases h1 hfl with e | ⟨j, e⟩
      · exact .inl (by rw [hm]; exact e)
      · refine .inr ⟨j, ?_⟩
        have : j ≠ i := fun e' => hi (e' ▸ e)
        rw [hp, at_pcs, if_neg this]; exact e
    · rw [hp, at_pcs, hf]
      split
      · rcases hpc with rfl | rfl | rfl | e
        · simp
        · simp
        · simp
        · exact fun _ _ _ => e
      · exact h2 j
  cases a with
  | worker a =>
    obtain ⟨e1, e2, e3, rfl⟩ := gact_worker ha
    exact ⟨by rw [e1, e2, e3]; exact h1, by rw [e1, e2]; exact h2⟩
  | call i n =>
    simp only [gact] at ha
    split at ha <;> simp at ha
    rename_i hpc
    split at ha <;> obtain ⟨rfl, rfl⟩ := ha
    · exact move i _ _ (by simp [hpc]) (.inr (.inl rfl)) rfl rfl rfl
    · exact ⟨h1, h2⟩
  | timeout i =>
    simp only [gact] at ha
    split at ha <;> simp at ha
    rename_i hpc _
    obtain ⟨rfl, rfl⟩ := ha
    exact move i _ _ (by simp [hpc]) (.inl rfl) rfl rfl rfl
  | step i =>
    simp only [gact, gstep] at ha
    cases hpc : s.pcs i <;> rw [hpc] at ha <;> simp only at ha
    · simp at ha
    · simp at ha; obtain ⟨rfl, rfl⟩ := ha
      split
      · rename_i hf; exact move i _ _ (by simp [hpc]) (.inr (.inr (.inr hf))) rfl rfl rfl
      · exact move i _ _ (by simp [hpc]) (.inr (.inr (.inl rfl))) rfl rfl rfl
    · simp at ha; obtain ⟨rfl, rfl⟩ := ha
      exact ⟨fun _ => .inr ⟨i, by simp [at_pcs]⟩, fun _ _ _ _ => rfl⟩
    · have hf : s.flag = true := h2 i (by simp [hpc]) (by simp [hpc]) (by simp [hpc])
      split at ha <;> simp at ha <;> obtain ⟨rfl, rfl⟩ := ha
      · rename_i hst
        exact ⟨fun _ => .inl hst, fun _ _ _ _ => hf⟩
      · rename_i hst
        exact ⟨fun _ => .inl (by simp [startWorker, hst]), fun _ _ _ _ => hf⟩
    · have hf : s.flag = true := h2 i (by simp [hpc]) (by simp [hpc]) (by simp [hpc])
      split at ha
      · split at ha <;> simp at ha <;> obtain ⟨rfl, rfl⟩ := ha <;>
          exact move i _ _ (by simp [hpc]) (.inr (.inr (.inr hf))) rfl rfl rfl
      · simp at ha; obtain ⟨rfl, rfl⟩ := ha; exact move i _ _ (by simp [hpc]) (.inr (.inr (.inr hf))) rfl rfl rfl
    · have hf : s.flag = true := h2 i (by simp [hpc]) (by simp [hpc]) (by simp [hpc])
      split at ha <;> simp at ha
      obtain ⟨rfl, rfl⟩ := ha
      exact move i _ _ (by simp [hpc]) (.inr (.inr (.inr hf))) rfl rfl rfl
    · have hf : s.flag = true := h2 i (by simp [hpc]) (by simp [hpc]) (by simp [hpc])
      simp at ha; obtain ⟨rfl, rfl⟩ := ha; exact move i _ _ (by simp [hpc]) (.inr (.inr (.inr hf))) rfl rfl rfl
    · split at ha <;> simp at ha <;> obtain ⟨rfl, rfl⟩ := ha <;> exact move i _ _ (by simp [hpc]) (.inl rfl) rfl rfl rfl

/-- **C163**, no deadlock: let no thread be able to go on, although a thread is in `get_batch`. Then every such thread waits at the queue, which is
empty, for a worker that has ended, because a thread has taken the signal at the end of the stream or because the wrapped scheduler raised
another exception. -/
theorem C163_stuck (p : Src S B) (cfg : Cfg) (src0 : S) (as : List GAction) (s : GSt S B) (outs : List (GOut B)) (hb : 0 < cfg.bufferSize)
    (h : grun p cfg as (ginit src0) = some (s, outs)) (i : Nat) (hi : s.pcs i ≠ .out) (hstuck : ∀ a, a.moves = true → gact p cfg a s = none) :
    (∀ j, s.pcs j = .out ∨ s.pcs j = .wait) ∧ s.main.queue = [] ∧ (none ∈ taken outs ∨ ∃ e, s.main.w = .died e) := by
  have hg : Going s := grun_invariant (p := p) (cfg := cfg) (fun _ s => Going s) (fun _ => True) (fun _ _ _ _ _ h _ ha => going_step h ha)
    (s := ginit src0) (hist := []) ⟨by simp [ginit], fun j hj => (hj rfl).elim⟩ (fun _ _ => trivial) h
  obtain ⟨bs, src, k, ⟨_, _⟩, hacc⟩ := grun_acc h
  have hstep : ∀ j, gstep p j s = none := fun j => hstuck (.step j) rfl
  have hpcs : ∀ j, s.pcs j = .out ∨ s.pcs j = .wait ∧ s.main.queue = [] := by
    intro j
    have := hstep j
    unfold gstep at this
    cases hpc : s.pcs j <;> rw [hpc] at this <;> simp only at this
    · exact .inl rfl
    · simp at this
    · simp at this
    · split at this <;> simp at this
    · split at this
      · split at this <;> simp at this
      · simp at this
    · split at this
      · rename_i hq; exact .inr ⟨rfl, hq⟩
      · simp at this
    · simp at this
    · split at this <;> simp at this
  have hw : s.pcs i = .wait ∧ s.main.queue = [] := (hpcs i).resolve_left hi
  refine ⟨fun j => (hpcs j).imp_right And.left, hw.2, ?_⟩
  have hstart : s.main.started = true := by
    rcases hg.1 (hg.2 i hi (by simp [hw.1]) (by simp [hw.1])) with e | ⟨j, e⟩
    · exact e
    · rcases hpcs j with e' | ⟨e', _⟩ <;> rw [e] at e' <;> simp at e'
  have work : ∀ a : Action, a.isWorker = true → a ≠ .eosTimeout → act p cfg a s.main = none := by
    intro a h1 h2
    have := hstuck (.worker a) (by simpa [GAction.moves] using h2)
    simpa [gact, h1] using this
  cases hws : s.main.w with
  | idle => rw [hws] at hacc; simp only at hacc; rw [hacc.2.2.1] at hstart; simp at hstart
  | loop => have := work .check rfl (by simp); simp only [act, hws] at this; simp at this
  | fetch => have := work .fetch rfl (by simp); simp only [act, hws] at this; simp at this
  | put b => have := work .put rfl (by simp); simp [act, hws, hw.2, hb] at this
  | eos => have := work .eosPut rfl (by simp); simp [act, hws, hw.2, hb] at this
  | eosForce => have := work .eosForce rfl (by simp); simp [act, hws] at this
  | eosStop => have := work .eosStop rfl (by simp); simp [act, hws] at this
  | exited =>
    rw [hws] at hacc; simp only [hw.2, List.append_nil] at hacc
    refine .inl ?_
    rcases hacc.2.2 with e | ⟨_, j, _, _, e⟩ <;> rw [e] <;> simp
  | died e => exact .inr ⟨e, rfl⟩

/-! ## Episodes -/

/-- **C163** fails for episodes: the length of an episode is two, and two threads that both find one batch taken get a third batch, the first of the
next episode, although nobody has called `next_episode`. -/
theorem C163_refuted_episodes : EpisodesOf demoEp (0, 0) 2 ∧ ∃ (as : List GAction) (s : GSt (Nat × Nat) (Nat × Nat)) (outs : List (GOut (Nat × Nat))),
    grun demoEp ⟨4, 4⟩ as (ginit (0, 0)) = some (s, outs) ∧ answers 0 outs = [some (0, 0), some (0, 1)] ∧ answers 1 outs = [some (1, 0)] :=
  ⟨demoEp_episodes, [.call 0 4, .step 0, .step 0, .step 0, .step 0] ++ (round ++ round ++ [Action.check, .fetch] ++ round).map .worker ++
    [.step 0, .step 0, .step 0, .call 0 4, .call 1 4, .step 0, .step 0, .step 1, .step 1, .step 0, .step 0, .step 0, .step 1, .step 1, .step 1],
   _, _, rfl, rfl, rfl⟩

/-- **C163** fails for the count of batches even when the threads are done: two threads have each got a batch, and `_t`, from which
`steps_remaining` is computed, is one. -/
theorem C163_refuted_count : ∃ (as : List GAction) (s : GSt (Nat × Nat) (Nat × Nat)) (outs : List (GOut (Nat × Nat))),
    grun demoEp ⟨4, 4⟩ as (ginit (0, 0)) = some (s, outs) ∧ answers 0 outs = [some (0, 0)] ∧ answers 1 outs = [some (0, 1)] ∧
    (∀ j, s.pcs j = .out) ∧ s.main.t = 1 :=
  ⟨[.call 0 4, .step 0, .step 0, .step 0, .step 0, .call 1 4, .step 1, .step 1] ++ (round ++ round).map .worker ++
    [.step 0, .step 0, .step 1, .step 1, .step 0, .step 1], _, _, rfl, rfl, rfl, fun j => by match j with | 0 => rfl | 1 => rfl | _ + 2 => rfl, rfl⟩

/-- The state between and during calls that do not overlap. -/
def Serial (p : Src S B) (hist : List (GOut B)) (s : GSt S B) : Prop :=
  ∃ i, (∀ j, j ≠ i → s.pcs j = .out) ∧ (taken hist).length = s.main.t + (inHand (s.pcs i)).length ∧ (∀ x t, s.pcs i = .write x t → t = s.main.t) ∧
    (∀ L, p.episodeLength = some L → (taken hist).length ≤ L ∧ (s.pcs i = .wait → s.main.t < L)) ∧
    (∀ j, .episodeEnd j ∈ hist → ∃ L, p.episodeLength = some L ∧ L ≤ (taken hist).length)

theorem gact_worker_t {a : Action} {s s1 : GSt S B} {o} (h : gact p cfg (.worker a) s = some (s1, o)) : s1.main.t = s.main.t := by
  simp only [gact] at h
  split at h
  · rename_i hw
    cases hact : act p cfg a s.main with
    | none => rw [hact] at h; simp at h
    | some r =>
      rw [hact] at h
      simp only [Option.map_some, Option.some.injEq, Prod.mk.injEq] at h
      obtain ⟨rfl, rfl⟩ := h
      obtain ⟨s2, o2⟩ := r
      cases a <;> simp [Action.isWorker] at hw <;> simp only [act] at hact <;> (try unfold fetchStep at hact) <;> (repeat' split at hact) <;>
            simp at hact <;> obtain ⟨rfl, rfl⟩ := hact <;> rfl
  · simp at h

theorem serial_step {hist : List (GOut B)} {s s1 : GSt S B} {a o} (h : Serial p hist s) (hone : (∃ i n, a = .call i n) → ∀ j, s.pcs j = .out)
    (ha : gact p cfg a s = some (s1, o)) : Serial p (hist ++ [o]) s1 := by
  obtain ⟨i, h1, h2, h3, h4, h5⟩ := h
  have ends : ∀ o : GOut B, (∀ j, o ≠ .episodeEnd j) → ∀ j, .episodeEnd j ∈ hist ++ [o] → ∃ L, p.episodeLength = some L ∧ L ≤ (taken (hist ++ [o])).length := by
    intro o ho j hj
    rcases List.mem_append.mp hj with hj | hj
    · obtain ⟨L, e1, e2⟩ := h5 j hj
      exact ⟨L, e1, by rw [taken_append, List.length_append]; omega⟩
    · exact (ho j (List.mem_singleton.mp hj).symm).elim
  have quiet : ∀ o : GOut B, taken [o] = [] → taken (hist ++ [o]) = taken hist := by
    intro o e; rw [taken_append, e, List.append_nil]
  cases a with
  | worker a =>
    obtain ⟨e1, e2, e3, rfl⟩ := gact_worker ha
    have e4 := gact_worker_t ha
    have q := quiet .tau rfl
    exact ⟨i, by rw [e1]; exact h1, by rw [q, e4, e1]; exact h2, by rw [e1, e4]; exact h3, by rw [q, e1, e4]; exact h4, ends _ (by simp)⟩
  | call k n =>
    have hall := hone ⟨k, n, rfl⟩
    rw [hall i] at h2
    simp only [gact] at ha
    split at ha <;> simp at ha
    split at ha <;> obtain ⟨rfl, rfl⟩ := ha
    · refine ⟨k, fun j hj => by rw [at_pcs, if_neg hj]; exact hall j, ?_, by simp [at_pcs], ?_, ends _ (by simp)⟩
      · rw [quiet _ rfl]; simpa [at_pcs, inHand] using h2
      · rw [quiet _ rfl]; exact fun L e => ⟨(h4 L e).1, by simp [at_pcs]⟩
    · exact ⟨i, h1, by rw [quiet _ rfl, hall i]; exact h2, h3, by rw [quiet _ rfl]; exact h4, ends _ (by simp)⟩
  | timeout k =>
    simp only [gact] at ha
    split at ha <;> simp at ha
    rename_i hpc _
    obtain ⟨rfl, rfl⟩ := ha
    have hk : k = i := by
      by_contra hne
      rw [h1 k hne] at hpc; simp at hpc
    subst hk
    rw [hpc] at h2
    refine ⟨k, fun j hj => by rw [at_pcs, if_neg hj]; exact h1 j hj, ?_, by simp [at_pcs], ?_, ends _ (by simp)⟩
    · rw [quiet _ rfl]; simpa [at_pcs, inHand] using h2
    · rw [quiet _ rfl]; exact fun L e => ⟨(h4 L e).1, by simp [at_pcs]⟩
  | step k =>
    simp only [gact, gstep] at ha
    have hk : k = i := by
      by_contra hne
      rw [h1 k hne] at ha; simp at ha
    subst hk
    have others : ∀ (pc : GPc B) j, j ≠ k → (if j = k then pc else s.pcs j) = .out := by
      intro pc j hj; rw [if_neg hj]; exact h1 j hj
    -- steps that neither take an item nor count one
    have plain : ∀ (pc : GPc B) (s1 : GSt S B) (o : GOut B), taken [o] = [] → (∀ j, o ≠ .episodeEnd j) → inHand (s.pcs k) = [] → inHand pc = [] →
        (∀ L, p.episodeLength = some L → pc = .wait → s.main.t < L) → s1.pcs = (s.at k pc).pcs → s1.main.t = s.main.t → Serial p (hist ++ [o]) s1 := by
      intro pc s1 o ho ho' e1 e2 e3 e4 e5
      rw [e1] at h2
      refine ⟨k, fun j hj => by rw [e4, at_pcs]; exact others _ j hj, ?_, ?_, ?_, ends o ho'⟩
      · rw [quiet o ho, e4, e5, at_pcs, if_pos rfl, e2]; exact h2
      · rw [e4, at_pcs, if_pos rfl]; intro x t e; rw [e] at e2; simp [inHand] at e2
      · rw [quiet o ho, e4, e5, at_pcs, if_pos rfl]; exact fun L e => ⟨(h4 L e).1, e3 L e⟩
    cases hpc : s.pcs k with
    | out => rw [hpc] at ha; simp at ha
    | started =>
      rw [hpc] at ha; simp at ha; obtain ⟨rfl, rfl⟩ := ha
      split
      · exact plain _ _ _ rfl (by simp) (by rw [hpc]; rfl) rfl (by simp) rfl rfl
      · exact plain _ _ _ rfl (by simp) (by rw [hpc]; rfl) rfl (by simp) rfl rfl
    | mark =>
      rw [hpc] at ha; simp at ha; obtain ⟨rfl, rfl⟩ := ha
      exact plain .start _ _ rfl (by simp) (by rw [hpc]; rfl) rfl (by simp) rfl rfl
    | start =>
      rw [hpc] at ha; simp only at ha
      split at ha <;> simp at ha <;> obtain ⟨rfl, rfl⟩ := ha
      · exact plain .out _ _ rfl (by simp) (by rw [hpc]; rfl) rfl (by simp) rfl rfl
      · exact plain .episode _ _ rfl (by simp) (by rw [hpc]; rfl) rfl (by simp) rfl (by simp [startWorker]; split <;> rfl)
    | episode =>
      rw [hpc] at ha; simp only at ha
      split at ha
      · rename_i L hL
        split at ha <;> simp at ha <;> obtain ⟨rfl, rfl⟩ := ha
        · rename_i hle
          rw [hpc] at h2
          have q := quiet (.episodeEnd k) rfl
          refine ⟨k, fun j hj => others _ j hj, ?_, by simp [at_pcs], ?_, ?_⟩
          · rw [q]; simpa [at_pcs, inHand] using h2
          · rw [q]; exact fun L e => ⟨(h4 L e).1, by simp [at_pcs]⟩
          · rw [q]; intro j _; exact ⟨L, hL, by simp [inHand] at h2; omega⟩
        · rename_i hle
          refine plain .wait _ _ rfl (by simp) (by rw [hpc]; rfl) rfl (fun L' hL' _ => ?_) rfl rfl
          rw [hL] at hL'
          simp at hL'
          omega
      · rename_i hn
        simp at ha; obtain ⟨rfl, rfl⟩ := ha
        exact plain .wait _ _ rfl (by simp) (by rw [hpc]; rfl) rfl (fun L' hL' _ => by rw [hn] at hL'; simp at hL') rfl rfl
    | wait =>
      rw [hpc] at ha h2; simp only at ha
      split at ha <;> simp at ha
      obtain ⟨rfl, rfl⟩ := ha
      have hlen : ∀ x : Option B, (taken (hist ++ [.took k x])).length = (taken hist).length + 1 := by intro x; simp [taken]
      refine ⟨k, fun j hj => others _ j hj, ?_, by simp [at_pcs], ?_, ends _ (by simp)⟩
      · rw [hlen]; simpa [at_pcs, inHand] using h2
      · rw [hlen]; intro L e
        have := (h4 L e).2 hpc
        simp [inHand] at h2
        exact ⟨by omega, by simp [at_pcs]⟩
    | read x =>
      rw [hpc] at ha h2; simp at ha; obtain ⟨rfl, rfl⟩ := ha
      have q := quiet .tau rfl
      refine ⟨k, fun j hj => others _ j hj, ?_, by simp [at_pcs], ?_, ends _ (by simp)⟩
      · rw [q]; simpa [at_pcs, inHand] using h2
      · rw [q]; exact fun L e => ⟨(h4 L e).1, by simp [at_pcs]⟩
    | write x t =>
      have ht := h3 x t hpc
      rw [hpc] at ha h2; simp only at ha
      subst ht
      have key : ∀ o : GOut B, taken [o] = [] → (∀ j, o ≠ .episodeEnd j) →
          Serial p (hist ++ [o]) ({ s with main := { s.main with t := s.main.t + 1 } }.at k .out) := by
        intro o ho ho'
        refine ⟨k, fun j hj => others _ j hj, ?_, by simp [at_pcs], ?_, ends o ho'⟩
        · rw [quiet o ho]; simpa [at_pcs, inHand] using h2
        · rw [quiet o ho]; exact fun L e => ⟨(h4 L e).1, by simp [at_pcs]⟩
      split at ha <;> simp at ha <;> obtain ⟨rfl, rfl⟩ := ha <;> exact key _ rfl (by simp)

/-- **C163** for episodes, for threads that take turns: if no call of `get_batch` begins before the others have ended, at most `episode_length` items leave
the queue until `next_episode` is called, `EpisodeEnd` is only raised when that many have, and between the calls `steps_remaining` is right. -/
theorem C163_turns (p : Src S B) (cfg : Cfg) (src0 : S) (as : List GAction) (s : GSt S B) (outs : List (GOut B))
    (h : grun p cfg as (ginit src0) = some (s, outs)) (hone : OneAtATime p cfg as (ginit src0)) :
    (∀ L, p.episodeLength = some L → (taken outs).length ≤ L) ∧
    (∀ i, .episodeEnd i ∈ outs → p.episodeLength = some (taken outs).length) ∧
    ((∀ j, s.pcs j = .out) → s.main.t = (taken outs).length) := by
  have key : ∀ (as : List GAction) (hist : List (GOut B)) (s s' : GSt S B) (outs : List (GOut B)), Serial p hist s → OneAtATime p cfg as s →
      grun p cfg as s = some (s', outs) → Serial p (hist ++ outs) s' := by
    intro as
    induction as with
    | nil => intro hist s s' outs h0 _ h; simp [grun] at h; obtain ⟨rfl, rfl⟩ := h; simpa using h0
    | cons a as ih =>
      intro hist s s' outs h0 ho h
      obtain ⟨s1, o, os, ha, hr, rfl⟩ := grun_cons h
      have := ih _ _ _ _ (serial_step h0 ho.1 ha) (ho.2 _ _ ha) hr
      simpa using this
  obtain ⟨i, _, h2, _, h4, h5⟩ := key as [] _ _ _ ⟨0, fun _ _ => rfl, rfl, by simp [ginit], fun L _ => ⟨Nat.zero_le _, by simp [ginit]⟩, by simp⟩ hone h
  simp only [List.nil_append] at h2 h4 h5
  refine ⟨fun L e => (h4 L e).1, fun j hj => ?_, fun hall => ?_⟩
  · obtain ⟨L, e1, e2⟩ := h5 j hj
    rw [e1, Nat.le_antisymm e2 (h4 L e1).1]
  · rw [hall i] at h2; simpa [inHand] using h2.symm

/-- **C163**: `get_batch` raises `ValueError` in a thread exactly when it is called there with a batch size other than the scheduler's. -/
theorem C163_batch_size (p : Src S B) (cfg : Cfg) (src0 : S) (as : List GAction) (s : GSt S B) (outs : List (GOut B))
    (h : grun p cfg as (ginit src0) = some (s, outs)) (i : Nat) : .valueError i ∈ outs ↔ ∃ n, n ≠ cfg.batchSize ∧ .call i n ∈ as := by
  have one : ∀ (a : GAction) (s s1 : GSt S B) (o : GOut B), gact p cfg a s = some (s1, o) → (o = .valueError i ↔ ∃ n, n ≠ cfg.batchSize ∧ a = .call i n) := by
    intro a s s1 o ha
    cases a with
    | worker a => obtain ⟨_, _, _, rfl⟩ := gact_worker ha; simp
    | timeout k => simp only [gact] at ha; split at ha <;> simp at ha; obtain ⟨_, rfl⟩ := ha; simp
    | call k n =>
      simp only [gact] at ha
      split at ha <;> simp at ha
      split at ha <;> obtain ⟨_, rfl⟩ := ha
      · rename_i hn; simp; exact fun h _ => h hn
      · rename_i hn; simp; exact fun _ => hn
    | step k =>
      simp only [gact, gstep] at ha
      repeat' split at ha
      all_goals simp at ha
      all_goals obtain ⟨_, rfl⟩ := ha
      all_goals simp
  have key : ∀ (as : List GAction) (s s' : GSt S B) (outs : List (GOut B)), grun p cfg as s = some (s', outs) →
      (.valueError i ∈ outs ↔ ∃ n, n ≠ cfg.batchSize ∧ .call i n ∈ as) := by
    intro as
    induction as with
    | nil => intro s s' outs h; simp [grun] at h; obtain ⟨rfl, rfl⟩ := h; simp
    | cons a as ih =>
      intro s s' outs h
      obtain ⟨s1, o, os, ha, hr, rfl⟩ := grun_cons h
      have e1 := one _ _ _ _ ha
      have e2 := ih _ _ _ hr
      simp only [List.mem_cons]
      rw [e2, eq_comm, e1]
      constructor
      · rintro (⟨n, hn, rfl⟩ | ⟨n, hn, hm⟩)
        · exact ⟨n, hn, .inl rfl⟩
        · exact ⟨n, hn, .inr hm⟩
      · rintro ⟨n, hn, hm | hm⟩
        · exact .inl ⟨n, hn, hm.symm⟩
        · exact .inr ⟨n, hn, hm⟩
  exact key _ _ _ _ h

/-! ## Two threads -/

/-- Thread 0 gets the first and the third batch, thread 1 the second: the hypotheses of `C163_each_once_partial` and of `C163_started_once` are met. -/
example : ∃ (s : GSt Nat Nat) (outs0 outs : List (GOut Nat)),
    (grun demoSrc ⟨4, 2⟩ ([.call 0 4, .step 0, .step 0, .step 0, .step 0] ++ (round ++ round).map .worker ++ [.step 0, .step 0, .step 0]) (ginit 0)) = some (s, outs0) ∧
    GOut.ret 0 0 ∈ outs0 ∧
    (grun demoSrc ⟨4, 2⟩ ([.call 1 4, .call 0 4, .step 1, .step 0, .step 1, .step 0, .step 1, .step 1] ++ round.map .worker ++ [.step 0, .step 0, .step 0, .step 1]) s).map
      (·.2) = some outs ∧ answers 0 outs = [some 2] ∧ answers 1 outs = [some 1] :=
  ⟨_, _, _, rfl, by decide, rfl, rfl, rfl⟩

/-- A schedule after which two threads wait for ever: the wrapped scheduler has raised an exception. -/
example : ∃ s : GSt Unit Nat, (grun (demoFail .keyError) ⟨4, 2⟩ ([.call 0 4, .step 0, .step 0, .step 0, .step 0, .call 1 4, .step 1, .step 1] ++
    [.worker .check, .worker .fetch]) (ginit ())).map (·.1) = some s ∧ s.pcs 0 = .wait ∧ s.pcs 1 = .wait ∧ s.main.w = .died .keyError :=
  ⟨_, rfl, rfl, rfl, rfl⟩

/-- Two threads that take turns: the third call, in thread 0, is told that the episode has ended; a call for three fields is refused. -/
example : (∃ s, grun demoEp ⟨4, 2⟩ ([.call 0 4, .step 0, .step 0, .step 0, .step 0] ++ (round ++ round).map .worker ++
      [.step 0, .step 0, .step 0, .call 1 4, .step 1, .step 1, .step 1, .step 1, .step 1, .call 1 3, .call 0 4, .step 0, .step 0]) (ginit (0, 0)) =
      some (s, [.tau, .tau, .tau, .tau, .tau, .tau, .tau, .tau, .tau, .tau, .tau, .took 0 (some (0, 0)), .tau, .ret 0 (0, 0),
        .tau, .tau, .tau, .took 1 (some (0, 1)), .tau, .ret 1 (0, 1), .valueError 1, .tau, .tau, .episodeEnd 0]) ∧ s.main.t = 2) :=
  ⟨_, rfl, rfl⟩

/-- Calls that do not overlap meet the hypothesis of `C163_turns`. -/
example : OneAtATime demoEp ⟨4, 2⟩ ([.call 0 4, .step 0, .step 0, .step 0, .step 0] ++ round.map .worker ++ [.step 0, .step 0, .step 0, .call 1 4]) (ginit (0, 0)) := by
  have out : ∀ s : GSt (Nat × Nat) (Nat × Nat), s.pcs 0 = .out → (∀ j, s.pcs (j + 1) = .out) → ∀ j, s.pcs j = .out := by
    intro s h0 h j; cases j with | zero => exact h0 | succ j => exact h j
  refine ⟨fun _ => out _ rfl (fun _ => rfl), fun s o h => ?_⟩
  cases h
  iterate 10 (refine ⟨fun ⟨i, n, e⟩ => by simp at e, fun s o h => ?_⟩; cases h)
  refine ⟨fun _ => out _ rfl (fun _ => rfl), fun s o h => ?_⟩
  trivial

end Verif.Prefetch
