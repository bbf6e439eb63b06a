import Verif.Spec.Prefetch
import Mathlib.Data.List.Basic
/-!
# Lemmas about the prefetching scheduler
-/

namespace Verif.Prefetch
open Verif
variable {S B : Type} {p : Src S B} {cfg : Cfg}

/-! ## Runs -/

theorem run_nil (s : St S B) : run p cfg [] s = some (s, []) := rfl

theorem run_cons {a as} {s s2 : St S B} {outs} (h : run p cfg (a :: as) s = some (s2, outs)) :
    ∃ s1 o os, act p cfg a s = some (s1, o) ∧ run p cfg as s1 = some (s2, os) ∧ outs = o :: os := by
  rw [run] at h
  cases ha : act p cfg a s with
  | none => rw [ha] at h; simp at h
  | some q =>
    obtain ⟨s1, o⟩ := q
    rw [ha] at h
    simp only at h
    cases hr : run p cfg as s1 with
    | none => rw [hr] at h; simp at h
    | some r =>
      obtain ⟨s3, os⟩ := r
      rw [hr] at h
      simp only [Option.some.injEq, Prod.mk.injEq] at h
      obtain ⟨rfl, rfl⟩ := h
      exact ⟨s1, o, os, rfl, hr, rfl⟩

theorem run_append {as bs} {s s2 : St S B} {outs} (h : run p cfg (as ++ bs) s = some (s2, outs)) :
    ∃ s1 o1 o2, run p cfg as s = some (s1, o1) ∧ run p cfg bs s1 = some (s2, o2) ∧ outs = o1 ++ o2 := by
  induction as generalizing s outs with
  | nil => exact ⟨s, [], outs, rfl, h, rfl⟩
  | cons a as ih =>
    obtain ⟨s1, o, os, ha, hr, rfl⟩ := run_cons h
    obtain ⟨s3, o1, o2, h1, h2, rfl⟩ := ih hr
    refine ⟨s3, o :: o1, o2, ?_, h2, rfl⟩
    rw [run, ha]
    simp only
    rw [h1]

/-- Invariants with a ghost history: a relation between the outputs so far and the state that every allowed action keeps
holds after every run. -/
theorem run_invariant (I : List (Out B) → St S B → Prop) (ok : Action → Prop)
    (hstep : ∀ hist s a s1 o, I hist s → ok a → act p cfg a s = some (s1, o) → I (hist ++ [o]) s1)
    {as} {s s2 : St S B} {hist outs} (h0 : I hist s) (hok : ∀ a ∈ as, ok a)
    (h : run p cfg as s = some (s2, outs)) : I (hist ++ outs) s2 := by
  induction as generalizing s hist outs with
  | nil =>
    rw [run_nil] at h
    simp only [Option.some.injEq, Prod.mk.injEq] at h
    obtain ⟨rfl, rfl⟩ := h
    simpa using h0
  | cons a as ih =>
    obtain ⟨s1, o, os, ha, hr, rfl⟩ := run_cons h
    have := ih (hstep _ _ _ _ _ h0 (hok a (by simp)) ha) (fun b hb => hok b (by simp [hb])) hr
    simpa using this

/-! ## The wrapped scheduler's stream -/

theorem Produces.snoc {s k bs s1 k1 b s2} (h : Produces p s k bs s1 k1) (hb : p.getBatch s1 = (.ok b, s2)) :
    Produces p s k (bs ++ [(k1, b)]) s2 (k1 + 1) := by
  induction h with
  | nil s k => exact .batch hb (.nil _ _)
  | batch h _ ih => exact .batch h (ih hb)
  | episode he h _ ih => exact .episode he h (ih hb)

theorem Produces.snocEpisode {s k bs s1 k1 s2} (h : Produces p s k bs s1 k1) (he : p.episodeLength.isSome)
    (hb : p.getBatch s1 = (.error .episodeEnd, s2)) : Produces p s k bs (p.nextEpisode s2) 0 := by
  induction h with
  | nil s k => exact .episode he hb (.nil _ _)
  | batch h _ ih => exact .batch h (ih hb)
  | episode he h _ ih => exact .episode he h (ih hb)

/-- The wrapped scheduler's stream is determined: two records of it agree on the shorter one's length. -/
theorem Produces.prefix {s k bs s1 k1 cs s2 k2} (h : Produces p s k bs s1 k1) (h' : Produces p s k cs s2 k2) :
    bs <+: cs ∨ cs <+: bs := by
  induction h generalizing cs with
  | nil s k => exact Or.inl (List.nil_prefix)
  | batch h _ ih =>
    cases h' with
    | nil => exact Or.inr (List.nil_prefix)
    | batch h2 t2 =>
      rw [h] at h2
      simp only [Prod.mk.injEq, Except.ok.injEq] at h2
      obtain ⟨rfl, rfl⟩ := h2
      rcases ih t2 with h | h
      · exact Or.inl (by simpa using h)
      · exact Or.inr (by simpa using h)
    | episode he h2 t2 => rw [h] at h2; simp at h2
  | episode he h _ ih =>
    cases h' with
    | nil => exact Or.inr (List.nil_prefix)
    | batch h2 t2 => rw [h] at h2; simp at h2
    | episode he2 h2 t2 =>
      rw [h] at h2
      simp only [Prod.mk.injEq, true_and] at h2
      subst h2
      exact ih t2

/-! ## Accounting: where the fetched batches are -/

/-- Actions of a session without `reset` and `shutdown`. -/
def Session : Action → Prop
  | .reset | .resetDrain | .join | .shutdown | .shutDrain | .shutPut | .shutJoin => False
  | _ => True

/-- Every batch produced by the wrapped scheduler is, in order, gone through the consumer, in the queue, or in the
worker's hands; if `lossy`, the forced end-of-stream signal may have removed one batch. -/
def Acc (p : Src S B) (cfg : Cfg) (src0 : S) (lossy : Prop) (out : List (Option B)) (s : St S B) : Prop :=
  ∃ bs src k, (Produces p src0 0 bs src k ∧ s.queue.length ≤ max 1 cfg.bufferSize) ∧
    let items := bs.map (fun q => some q.2)
    match s.w with
    | .idle => s.src = src ∧ s.stop = false ∧ s.started = false ∧ out = [] ∧ s.queue = [] ∧ bs = []
    | .loop | .fetch => s.src = src ∧ s.stop = false ∧ s.started = true ∧ out ++ s.queue = items
    | .put b => s.src = src ∧ s.stop = false ∧ s.started = true ∧ out ++ s.queue ++ [some b] = items
    | .eos => (p.getBatch src).1 = .error .stopIteration ∧ s.started = true ∧ out ++ s.queue = items
    | .eosForce => lossy ∧ (p.getBatch src).1 = .error .stopIteration ∧ s.started = true ∧ out ++ s.queue = items
    | .eosStop | .exited => (p.getBatch src).1 = .error .stopIteration ∧ s.started = true ∧
        (out ++ s.queue = items ++ [none] ∨ lossy ∧ ∃ i, i < bs.length ∧ bs.length ≤ i + max 1 cfg.bufferSize ∧ out ++ s.queue = items.eraseIdx i ++ [none])
    | .died e => (p.getBatch src).1 ≠ .error .stopIteration ∧ s.started = true ∧ out ++ s.queue = items ∧
        (∃ e', (p.getBatch src).1 = .error e' ∧ (e = e' ∧ e' ≠ .episodeEnd ∨ e' = .episodeEnd ∧ p.episodeLength = none))

theorem leftQueue_append (xs ys : List (Out B)) : leftQueue (xs ++ ys) = leftQueue xs ++ leftQueue ys := by
  simp [leftQueue]

theorem returned_append (xs ys : List (Out B)) : returned (xs ++ ys) = returned xs ++ returned ys := by
  simp [returned]

/-- The consumer part of `Acc` only depends on what was removed and what is in the queue. -/
theorem Acc.consume {src0 : S} {lossy : Prop} {out x} {s s' : St S B} {q : List (Option B)} (h : Acc p cfg src0 lossy out s)
    (hq : s.queue = x :: q) (hq' : s'.queue = q) (hs : s'.src = s.src) (hw : s'.w = s.w) (hst : s'.stop = s.stop)
    (hsd : s'.started = s.started) : Acc p cfg src0 lossy (out ++ [x]) s' := by
  obtain ⟨bs, src, k, hp, h⟩ := h
  refine ⟨bs, src, k, ⟨hp.1, by have := hp.2; simp_all; try omega⟩, ?_⟩
  rw [hw]
  cases hws : s.w <;> rw [hws] at h <;> simp_all

theorem Acc.congr {src0 : S} {lossy : Prop} {out} {s s' : St S B} (h : Acc p cfg src0 lossy out s) (hq : s'.queue = s.queue)
    (hs : s'.src = s.src) (hw : s'.w = s.w) (hst : s'.stop = s.stop) (hsd : s'.started = s.started) :
    Acc p cfg src0 lossy out s' := by
  obtain ⟨bs, src, k, hp, h⟩ := h
  refine ⟨bs, src, k, ⟨hp.1, by have := hp.2; simp_all; try omega⟩, ?_⟩
  rw [hw]
  cases hws : s.w <;> rw [hws] at h <;> simp_all

theorem Acc.startWorker {src0 : S} {lossy : Prop} {out} {s : St S B} (h : Acc p cfg src0 lossy out s) : Acc p cfg src0 lossy out (startWorker s) := by
  unfold Prefetch.startWorker
  split
  · exact h
  · rename_i hns
    obtain ⟨bs, src, k, hp, h⟩ := h
    refine ⟨bs, src, k, hp, ?_⟩
    cases hws : s.w <;> rw [hws] at h <;> simp_all

theorem Acc.step {src0 : S} {lossy : Prop} {hist : List (Out B)} {s s1 : St S B} {a o}
    (h : Acc p cfg src0 lossy (leftQueue hist) s) (hok : Session a) (hl : a = .eosTimeout → lossy)
    (ha : act p cfg a s = some (s1, o)) : Acc p cfg src0 lossy (leftQueue (hist ++ [o])) s1 := by
  rw [leftQueue_append]
  have htau : leftQueue [Out.tau (B := B)] = [] := rfl
  cases a with
  | check =>
    obtain ⟨bs, src, k, hp, h⟩ := h
    cases hw : s.w <;> simp only [act, hw] at ha <;> try contradiction
    rw [hw] at h
    obtain ⟨h1, h2, h3, h4⟩ := h
    simp only [h2] at ha
    simp at ha
    obtain ⟨rfl, rfl⟩ := ha
    refine ⟨bs, src, k, hp, ?_⟩
    simp_all
  | fetch =>
    obtain ⟨bs, src, k, hp, h⟩ := h
    cases hw : s.w <;> simp only [act, hw] at ha <;> try contradiction
    rw [hw] at h
    obtain ⟨h1, h2, h3, h4⟩ := h
    subst h1
    simp only [Option.some.injEq] at ha
    unfold fetchStep at ha
    split at ha
    · rename_i b src' heq
      simp only [Prod.mk.injEq] at ha
      obtain ⟨rfl, rfl⟩ := ha
      refine ⟨bs ++ [(k, b)], src', k + 1, ⟨hp.1.snoc heq, hp.2⟩, ?_⟩
      simp [leftQueue] at h4 ⊢
      simp [h2, h3, ← List.append_assoc, h4]
    · rename_i src' heq
      simp only [Prod.mk.injEq] at ha
      obtain ⟨rfl, rfl⟩ := ha
      refine ⟨bs, s.src, k, hp, ?_⟩
      simp only [htau, List.append_nil]
      exact ⟨by rw [heq], h3, h4⟩
    · rename_i src' heq
      split at ha
      · rename_i L hL
        simp only [Prod.mk.injEq] at ha
        obtain ⟨rfl, rfl⟩ := ha
        refine ⟨bs, p.nextEpisode src', 0, ⟨hp.1.snocEpisode (by rw [hL]; rfl) heq, hp.2⟩, ?_⟩
        simp only [htau, List.append_nil]
        exact ⟨trivial, h2, h3, h4⟩
      · simp only [Prod.mk.injEq] at ha
        obtain ⟨rfl, rfl⟩ := ha
        refine ⟨bs, s.src, k, hp, ?_⟩
        simp only [htau, List.append_nil]
        exact ⟨by rw [heq]; simp, h3, h4, .episodeEnd, by rw [heq], Or.inr ⟨rfl, by assumption⟩⟩
    · rename_i e src' hne1 hne2 heq
      simp only [Prod.mk.injEq] at ha
      obtain ⟨rfl, rfl⟩ := ha
      refine ⟨bs, s.src, k, hp, ?_⟩
      simp only [htau, List.append_nil]
      refine ⟨?_, h3, h4, e, by rw [heq], Or.inl ⟨rfl, fun hc => by simp_all⟩⟩
      rw [heq]
      intro hc
      simp only [Except.error.injEq] at hc
      subst hc
      exact hne1 rfl
  | put =>
    obtain ⟨bs, src, k, hp, h⟩ := h
    cases hw : s.w <;> simp only [act, hw] at ha <;> try contradiction
    rw [hw] at h
    split at ha <;> simp at ha
    rename_i hroom
    obtain ⟨rfl, rfl⟩ := ha
    refine ⟨bs, src, k, ⟨hp.1, by simp; omega⟩, ?_⟩
    simp_all
  | eosPut =>
    obtain ⟨bs, src, k, hp, h⟩ := h
    cases hw : s.w <;> simp only [act, hw] at ha <;> try contradiction
    rw [hw] at h
    split at ha <;> simp at ha
    rename_i hroom
    obtain ⟨rfl, rfl⟩ := ha
    refine ⟨bs, src, k, ⟨hp.1, by simp; omega⟩, ?_⟩
    simp only [htau, List.append_nil]
    refine ⟨h.1, h.2.1, Or.inl ?_⟩
    rw [← h.2.2, List.append_assoc]
  | eosTimeout =>
    obtain ⟨bs, src, k, hp, h⟩ := h
    cases hw : s.w <;> simp only [act, hw] at ha <;> try contradiction
    rw [hw] at h
    split at ha <;> simp at ha
    obtain ⟨rfl, rfl⟩ := ha
    refine ⟨bs, src, k, hp, ?_⟩
    simp only [htau, List.append_nil]
    exact ⟨hl rfl, h⟩
  | eosForce =>
    obtain ⟨bs, src, k, hp, h⟩ := h
    cases hw : s.w <;> simp only [act, hw] at ha <;> try contradiction
    rw [hw] at h
    simp at ha
    obtain ⟨rfl, rfl⟩ := ha
    refine ⟨bs, src, k, ⟨hp.1, by have := hp.2; simp; omega⟩, ?_⟩
    simp only [htau, List.append_nil]
    obtain ⟨hlo, h1, h2, h3⟩ := h
    refine ⟨h1, h2, ?_⟩
    cases hq : s.queue with
    | nil => left; rw [← h3, hq]; simp
    | cons x q =>
      right
      have hlen := congrArg List.length h3
      have hcap := hp.2
      simp only [hq, List.length_append, List.length_map, List.length_cons] at hlen hcap
      refine ⟨hlo, (leftQueue hist).length, by omega, by omega, ?_⟩
      rw [← h3, hq, List.eraseIdx_append_of_length_le (Nat.le_refl _)]
      simp
  | eosStop =>
    obtain ⟨bs, src, k, hp, h⟩ := h
    cases hw : s.w <;> simp only [act, hw] at ha <;> try contradiction
    rw [hw] at h
    simp at ha
    obtain ⟨rfl, rfl⟩ := ha
    refine ⟨bs, src, k, hp, ?_⟩
    simp only [htau, List.append_nil]
    exact h
  | get n =>
    cases hc : s.c <;> simp only [act, hc] at ha <;> try contradiction
    split at ha
    · simp at ha
      obtain ⟨rfl, rfl⟩ := ha
      show Acc p cfg src0 lossy (leftQueue hist ++ []) _
      rw [List.append_nil]
      exact h
    · split at ha
      · split at ha
        · simp at ha
          obtain ⟨rfl, rfl⟩ := ha
          show Acc p cfg src0 lossy (leftQueue hist ++ []) _
          rw [List.append_nil]
          exact h.startWorker
        · simp at ha
          obtain ⟨rfl, rfl⟩ := ha
          show Acc p cfg src0 lossy (leftQueue hist ++ []) _
          rw [List.append_nil]
          exact h.startWorker.congr rfl rfl rfl rfl rfl
      · simp at ha
        obtain ⟨rfl, rfl⟩ := ha
        show Acc p cfg src0 lossy (leftQueue hist ++ []) _
        rw [List.append_nil]
        exact h.startWorker.congr rfl rfl rfl rfl rfl
  | take =>
    simp only [act] at ha
    split at ha
    · rename_i x q hc hq
      cases x with
      | some b =>
        simp at ha
        obtain ⟨rfl, rfl⟩ := ha
        exact h.consume hq rfl rfl rfl rfl rfl
      | none =>
        simp at ha
        obtain ⟨rfl, rfl⟩ := ha
        exact h.consume hq rfl rfl rfl rfl rfl
    · simp at ha
  | timeout =>
    simp only [act] at ha
    split at ha
    · simp at ha
      obtain ⟨rfl, rfl⟩ := ha
      show Acc p cfg src0 lossy (leftQueue hist ++ []) _
      rw [List.append_nil]
      exact h.congr rfl rfl rfl rfl rfl
    · simp at ha
  | nextEpisode =>
    cases hc : s.c <;> simp only [act, hc] at ha <;> try contradiction
    split at ha
    · simp at ha
      obtain ⟨rfl, rfl⟩ := ha
      show Acc p cfg src0 lossy (leftQueue hist ++ []) _
      rw [List.append_nil]
      exact h
    · split at ha
      · simp at ha
        obtain ⟨rfl, rfl⟩ := ha
        show Acc p cfg src0 lossy (leftQueue hist ++ []) _
        rw [List.append_nil]
        exact h.congr rfl rfl rfl rfl rfl
      · simp at ha
        obtain ⟨rfl, rfl⟩ := ha
        show Acc p cfg src0 lossy (leftQueue hist ++ []) _
        rw [List.append_nil]
        exact h.startWorker.congr rfl rfl rfl rfl rfl
  | discard =>
    simp only [act] at ha
    split at ha
    · rename_i k x q hc hq
      cases x with
      | none =>
        simp at ha
        obtain ⟨rfl, rfl⟩ := ha
        exact h.consume hq rfl rfl rfl rfl rfl
      | some b =>
        simp only at ha
        split at ha
        · simp at ha
          obtain ⟨rfl, rfl⟩ := ha
          exact h.consume hq rfl rfl rfl rfl rfl
        · simp at ha
          obtain ⟨rfl, rfl⟩ := ha
          exact h.consume hq rfl rfl rfl rfl rfl
    · simp at ha
  | discardTimeout =>
    cases hc : s.c <;> simp only [act, hc] at ha <;> try contradiction
    simp at ha
    obtain ⟨rfl, rfl⟩ := ha
    show Acc p cfg src0 lossy (leftQueue hist ++ []) _
    rw [List.append_nil]
    exact h.congr rfl rfl rfl rfl rfl
  | reset => exact hok.elim
  | resetDrain => exact hok.elim
  | join => exact hok.elim
  | shutdown => exact hok.elim
  | shutDrain => exact hok.elim
  | shutPut => exact hok.elim
  | shutJoin => exact hok.elim

theorem Acc.run {src0 : S} {lossy : Prop} {as} {s : St S B} {outs} (hok : ∀ a ∈ as, Session a)
    (hl : .eosTimeout ∈ as → lossy) (h : run p cfg as (init src0) = some (s, outs)) :
    Acc p cfg src0 lossy (leftQueue outs) s := by
  have := run_invariant (p := p) (cfg := cfg) (fun hist s => Acc p cfg src0 lossy (leftQueue hist) s)
    (fun a => Session a ∧ (a = .eosTimeout → lossy)) (fun _ _ _ _ _ h hok ha => h.step hok.1 hok.2 ha)
    (s := init src0) (hist := []) ⟨[], src0, 0, ⟨.nil _ _, Nat.zero_le _⟩, rfl, rfl, rfl, rfl, rfl, rfl⟩
    (fun a ha => ⟨hok a ha, fun he => hl (he ▸ ha)⟩) h
  simpa using this

end Verif.Prefetch
