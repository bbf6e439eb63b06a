import Verif.Spec.InterruptPrefetch
import Verif.Props.Prefetch
/-!
# C177: calls of the prefetching scheduler that are interrupted
-/

namespace Verif.Prefetch
open Verif
open scoped List
variable {S B : Type} {p : Src S B} {cfg : Cfg}

private theorem irun_cons {a as} {s s2 : ISt S B} {outs} (h : irun p cfg (a :: as) s = some (s2, outs)) :
    ∃ s1 o os, iact p cfg a s = some (s1, o) ∧ irun p cfg as s1 = some (s2, os) ∧ outs = o :: os := by
  rw [irun] at h
  cases ha : iact p cfg a s with
  | none => rw [ha] at h; simp at h
  | some q =>
    obtain ⟨s1, o⟩ := q
    rw [ha] at h
    simp only at h
    cases hr : irun p cfg as s1 with
    | none => rw [hr] at h; simp at h
    | some r =>
      obtain ⟨s3, os⟩ := r
      rw [hr] at h
      simp only [Option.some.injEq, Prod.mk.injEq] at h
      obtain ⟨rfl, rfl⟩ := h
      exact ⟨s1, o, os, rfl, hr, rfl⟩

private theorem irun_append {as bs : List IAction} {s s1 s2 : ISt S B} {o1 o2} (h1 : irun p cfg as s = some (s1, o1)) (h2 : irun p cfg bs s1 = some (s2, o2)) :
    irun p cfg (as ++ bs) s = some (s2, o1 ++ o2) := by
  induction as generalizing s o1 with
  | nil => simp [irun] at h1; obtain ⟨rfl, rfl⟩ := h1; simpa using h2
  | cons a as ih =>
    obtain ⟨s', o, os, ha, hr, rfl⟩ := irun_cons h1
    rw [List.cons_append, irun, ha]
    simp only
    rw [ih hr]
    rfl

/-- An invariant that every allowed step keeps holds after every run. -/
private theorem irun_invariant (I : List (IOut B) → ISt S B → Prop) (ok : IAction → Prop)
    (hstep : ∀ hist s a s' o, I hist s → ok a → iact p cfg a s = some (s', o) → I (hist ++ [o]) s')
    {as : List IAction} {hist : List (IOut B)} {s s' : ISt S B} {outs} (h0 : I hist s) (hok : ∀ a ∈ as, ok a) (h : irun p cfg as s = some (s', outs)) :
    I (hist ++ outs) s' := by
  induction as generalizing s hist outs with
  | nil => simp [irun] at h; obtain ⟨rfl, rfl⟩ := h; simpa using h0
  | cons a as ih =>
    obtain ⟨s1, o, os, ha, hr, rfl⟩ := irun_cons h
    have := ih (hstep _ _ _ _ _ h0 (hok a (by simp)) ha) (fun a ha => hok a (by simp [ha])) hr
    simpa using this

/-- A step of the worker, as far as the calling thread can see it. -/
private theorem wstep (hb : 0 < cfg.bufferSize) {s s1 : St S B} {a o} (hw : a.isWorker = true) (ha : act p cfg a s = some (s1, o)) :
    (s.queue.length ≤ cfg.bufferSize → s1.queue.length ≤ cfg.bufferSize) ∧ s1.c = s.c ∧ s1.startup = s.startup ∧ s1.t = s.t ∧ s1.started = s.started ∧
    (s.stop = true → (s.w.mayPut = true → s.queue.length < cfg.bufferSize) → (s1.w.mayPut = true → s1.queue.length < cfg.bufferSize)) ∧ s.w.ended = false := by
  cases a with
  | fetch =>
    cases hw : s.w <;> simp only [act, hw] at ha <;> try contradiction
    simp only [Option.some.injEq] at ha
    rcases fetchStep_cases (p := p) s with ⟨b, src, he⟩ | ⟨w, src, he, hw'⟩
    · rw [he] at ha; simp at ha; obtain ⟨rfl, rfl⟩ := ha
      exact ⟨id, rfl, rfl, rfl, rfl, fun _ h _ => h rfl, rfl⟩
    · rw [he] at ha; simp at ha; obtain ⟨rfl, rfl⟩ := ha
      refine ⟨id, rfl, rfl, rfl, rfl, fun _ _ hm => ?_, rfl⟩
      rcases hw' with rfl | rfl | ⟨e, rfl⟩ <;> simp [WPc.mayPut] at hm
  | _ =>
    simp only [Action.isWorker] at hw; try contradiction
    all_goals simp only [act] at ha
    all_goals repeat' split at ha
    all_goals try contradiction
    all_goals
      simp at ha
      obtain ⟨rfl, rfl⟩ := ha
      simp_all [WPc.mayPut, WPc.ended]
      try omega

/-- What holds in every state. -/
private def Sane (cfg : Cfg) (s : ISt S B) : Prop := s.main.queue.length ≤ cfg.bufferSize ∧ s.main.c = .idle ∧ s.main.startup = true

private theorem Sane.istep {s s1 : ISt S B} {o} (h : Sane cfg s) (ha : istep p cfg s = some (s1, o)) : Sane cfg s1 := by
  obtain ⟨h1, h2, h3⟩ := h
  unfold Prefetch.istep at ha
  repeat' split at ha
  all_goals try contradiction
  all_goals
    simp at ha
    obtain ⟨rfl, rfl⟩ := ha
    simp_all [Sane, startWorker]
  all_goals try omega

private theorem Sane.step (hb : 0 < cfg.bufferSize) {s s1 : ISt S B} {a o} (h : Sane cfg s) (ha : iact p cfg a s = some (s1, o)) : Sane cfg s1 := by
  cases a with
  | worker a =>
    simp only [iact] at ha
    split at ha
    · rename_i hw
      cases hact : act p cfg a s.main with
      | none => rw [hact] at ha; simp at ha
      | some r =>
        rw [hact] at ha
        simp only [Option.map_some, Option.some.injEq, Prod.mk.injEq] at ha
        obtain ⟨rfl, rfl⟩ := ha
        obtain ⟨k1, k2, k3, _⟩ := wstep hb hw hact
        exact ⟨k1 h.1, k2.trans h.2.1, k3.trans h.2.2⟩
    · simp at ha
  | step => exact h.istep ha
  | _ =>
    simp only [iact] at ha
    repeat' split at ha
    all_goals try contradiction
    all_goals
      simp at ha
      try split at ha
    all_goals
      obtain ⟨rfl, rfl⟩ := ha
      exact h

private theorem sane_run (hb : 0 < cfg.bufferSize) {src0 : S} {as : List IAction} {s : ISt S B} {outs} (h : irun p cfg as (iinit src0) = some (s, outs)) :
    Sane cfg s :=
  irun_invariant (fun _ s => Sane cfg s) (fun _ => True) (fun _ _ _ _ _ h _ ha => h.step hb ha) (hist := []) ⟨Nat.zero_le _, rfl, rfl⟩ (fun _ _ => trivial) h

/-- During `reset`. -/
private def InReset (p : Src S B) (cfg : Cfg) (s : ISt S B) : Prop :=
  Sane cfg s ∧
  match s.pc with
  | .drain => s.main.stop = true
  | .join => s.main.stop = true ∧ (s.main.w.mayPut = true → s.main.queue.length < cfg.bufferSize)
  | .clear => s.main.w.ended = true
  | .source => s.main.w.ended = true ∧ s.main.queue = []
  | .counter => s.main.w.ended = true ∧ s.main.queue = [] ∧ ∃ src, s.main.src = p.reset src
  | .unmark => s.main.w.ended = true ∧ s.main.queue = [] ∧ (∃ src, s.main.src = p.reset src) ∧ s.main.t = 0
  | .unstop => s.main.w.ended = true ∧ s.main.queue = [] ∧ (∃ src, s.main.src = p.reset src) ∧ s.main.t = 0 ∧ s.flag = false
  | .queue => s.main.w.ended = true ∧ s.main.queue = [] ∧ (∃ src, s.main.src = p.reset src) ∧ s.main.t = 0 ∧ s.flag = false ∧ s.main.stop = false
  | .thread => s.main.w.ended = true ∧ s.main.queue = [] ∧ (∃ src, s.main.src = p.reset src) ∧ s.main.t = 0 ∧ s.flag = false ∧ s.main.stop = false
  | .out => ∃ src, s = iinit (p.reset src)
  | _ => False

private def IPc.rank : IPc B → Nat
  | .drain => 9
  | .join => 8
  | .clear => 7
  | .source => 6
  | .counter => 5
  | .unmark => 4
  | .unstop => 3
  | .queue => 2
  | .thread => 1
  | _ => 0

private theorem InReset.step (hb : 0 < cfg.bufferSize) {s s1 : ISt S B} {a o} (h : InReset p cfg s) (hok : Undisturbed1 a = true)
    (ha : iact p cfg a s = some (s1, o)) : InReset p cfg s1 ∧ s1.main.w.rank + s1.pc.rank < s.main.w.rank + s.pc.rank := by
  have hs := h.1.step hb ha
  obtain ⟨⟨h1, h2, h3⟩, h⟩ := h
  cases a with
  | worker a =>
    simp only [iact] at ha
    split at ha
    · rename_i hw
      cases hact : act p cfg a s.main with
      | none => rw [hact] at ha; simp at ha
      | some r =>
        rw [hact] at ha
        simp only [Option.map_some, Option.some.injEq, Prod.mk.injEq] at ha
        obtain ⟨rfl, rfl⟩ := ha
        obtain ⟨_, _, _, _, _, k6, k7⟩ := wstep hb hw hact
        cases hpc : s.pc <;> rw [hpc] at h <;> simp only [k7, Bool.false_eq_true, false_and] at h
        · obtain ⟨src, rfl⟩ := h
          cases k7
        · obtain ⟨r1, r2, _⟩ := rank_step h hw hact
          exact ⟨⟨hs, by exact r2⟩, by simp only; omega⟩
        · obtain ⟨r1, r2, _⟩ := rank_step h.1 hw hact
          exact ⟨⟨hs, by exact ⟨r2, k6 h.1 h.2⟩⟩, by simp only; omega⟩
    · simp at ha
  | step =>
    simp only [iact, istep] at ha
    cases hpc : s.pc <;> rw [hpc] at h ha <;> simp only at h ha
    · simp at ha
    · split at ha <;> simp at ha <;> obtain ⟨rfl, rfl⟩ := ha
      · rename_i hq
        exact ⟨⟨hs, h, fun _ => by rw [hq]; exact hb⟩, by simp [IPc.rank]⟩
      · rename_i x q hq
        refine ⟨⟨hs, h, fun _ => ?_⟩, by simp [IPc.rank]⟩
        rw [hq] at h1
        simp only [List.length_cons] at h1
        exact h1
    · split at ha <;> simp at ha
      obtain ⟨rfl, rfl⟩ := ha
      exact ⟨⟨hs, by assumption⟩, by simp [IPc.rank]⟩
    · simp at ha; obtain ⟨rfl, rfl⟩ := ha
      exact ⟨⟨hs, h, rfl⟩, by simp [IPc.rank]⟩
    · simp at ha; obtain ⟨rfl, rfl⟩ := ha
      exact ⟨⟨hs, h.1, h.2, _, rfl⟩, by simp [IPc.rank]⟩
    · simp at ha; obtain ⟨rfl, rfl⟩ := ha
      exact ⟨⟨hs, h.1, h.2.1, h.2.2, rfl⟩, by simp [IPc.rank]⟩
    · simp at ha; obtain ⟨rfl, rfl⟩ := ha
      exact ⟨⟨hs, h.1, h.2.1, h.2.2.1, h.2.2.2, rfl⟩, by simp [IPc.rank]⟩
    · simp at ha; obtain ⟨rfl, rfl⟩ := ha
      exact ⟨⟨hs, h.1, h.2.1, h.2.2.1, h.2.2.2.1, h.2.2.2.2, rfl⟩, by simp [IPc.rank]⟩
    · simp at ha; obtain ⟨rfl, rfl⟩ := ha
      exact ⟨⟨hs, h.1, rfl, h.2.2.1, h.2.2.2.1, h.2.2.2.2.1, h.2.2.2.2.2⟩, by simp [IPc.rank]⟩
    · simp at ha; obtain ⟨rfl, rfl⟩ := ha
      obtain ⟨_, q, ⟨src, q1⟩, q2, q3, q4⟩ := h
      refine ⟨⟨hs, src, ?_⟩, by simp [IPc.rank, WPc.rank]⟩
      obtain ⟨m, f, pc⟩ := s
      obtain ⟨m1, m2, m3, m4, m5, m6, m7, m8⟩ := m
      simp only at *
      subst q q1 q2 q3 q4 h2 h3
      rfl
  | _ => simp [Undisturbed1] at hok

private theorem InReset.enabled {s : ISt S B} (h : InReset p cfg s) :
    (∃ src, s = iinit (p.reset src)) ∨ s.pc ≠ .out ∧ ∃ a, Undisturbed1 a = true ∧ (iact p cfg a s).isSome := by
  obtain ⟨_, h⟩ := h
  cases hpc : s.pc <;> rw [hpc] at h <;> simp only at h
  · exact .inl h
  · refine .inr ⟨by simp, .step, rfl, ?_⟩
    simp only [iact, istep, hpc]
    split <;> rfl
  · refine .inr ⟨by simp, ?_⟩
    cases he : s.main.w.ended with
    | true => exact ⟨.step, rfl, by simp [iact, istep, hpc, he]⟩
    | false =>
      obtain ⟨a, hw, ha⟩ := worker_enabled (p := p) he h.2
      refine ⟨.worker a, rfl, ?_⟩
      simp only [iact, hw, if_true, Option.isSome_map]
      exact ha
  all_goals exact .inr ⟨by simp, .step, rfl, by simp [iact, istep, hpc]⟩

/-- **C177** (recovery). Whatever calls have been made, and wherever they have been interrupted: a `reset()` that is not interrupted itself ends after at most 13 steps of both
threads, in whatever order they move, without ever being stuck, and leaves the scheduler as it would be if it had just been built around the wrapped scheduler, after the
`reset()` of that. -/
theorem C177_recovers (p : Src S B) (cfg : Cfg) (hb : 0 < cfg.bufferSize) (src0 : S) (as : List IAction) (s : ISt S B) (outs : List (IOut B))
    (h : irun p cfg as (iinit src0) = some (s, outs)) (bs : List IAction) (hbs : ∀ a ∈ bs, Undisturbed1 a = true) (s' : ISt S B) (outs' : List (IOut B))
    (h' : irun p cfg (.reset :: bs) s = some (s', outs')) :
    bs.length ≤ 13 ∧ ((∃ src, s' = iinit (p.reset src)) ∨ s'.pc ≠ .out ∧ ∃ a, Undisturbed1 a = true ∧ (iact p cfg a s').isSome) := by
  have hs := sane_run hb h
  obtain ⟨s1, o, os, ha, hr, rfl⟩ := irun_cons h'
  have h1 : InReset p cfg s1 ∧ s1.pc.rank = 9 := by
    simp only [iact] at ha
    split at ha <;> simp at ha
    obtain ⟨rfl, rfl⟩ := ha
    exact ⟨⟨hs, rfl⟩, rfl⟩
  have gen : ∀ (bs : List IAction) (s1 : ISt S B) (os : List (IOut B)), (∀ a ∈ bs, Undisturbed1 a = true) → irun p cfg bs s1 = some (s', os) → InReset p cfg s1 →
      InReset p cfg s' ∧ bs.length ≤ s1.main.w.rank + s1.pc.rank := by
    intro bs
    induction bs with
    | nil =>
      intro s1 os _ hr hi
      simp [irun] at hr
      obtain ⟨rfl, rfl⟩ := hr
      exact ⟨hi, Nat.zero_le _⟩
    | cons a bs ih =>
      intro s1 os hok hr hi
      obtain ⟨s2, o, os', ha, hr', rfl⟩ := irun_cons hr
      obtain ⟨h2, h3⟩ := hi.step hb (hok a (by simp)) ha
      obtain ⟨h4, h5⟩ := ih s2 os' (fun a ha => hok a (by simp [ha])) hr' h2
      exact ⟨h4, by simp only [List.length_cons]; omega⟩
  obtain ⟨h2, h3⟩ := gen bs s1 os hbs hr h1.1
  have h4 : s1.main.w.rank ≤ 4 := by cases s1.main.w <;> simp [WPc.rank]
  exact ⟨by omega, h2.enabled⟩

private theorem departed_append (xs ys : List (IOut B)) : departed (xs ++ ys) = departed xs ++ departed ys := by simp [departed]
private theorem answered_append (xs ys : List (IOut B)) : answered (xs ++ ys) = answered xs ++ answered ys := by simp [answered]
private theorem tookCount_append (xs ys : List (IOut B)) : tookCount (xs ++ ys) = tookCount xs + tookCount ys := by simp [tookCount]
private theorem interruptions_append (xs ys : List (IOut B)) : interruptions (xs ++ ys) = interruptions xs + interruptions ys := by simp [interruptions]

/-- No `reset` and no `shutdown` is called, and none is under way. -/
private def Plain (s : ISt S B) : Prop :=
  match s.pc with
  | .out | .started _ | .mark _ | .start _ | .episode | .wait | .count _ | .answer _ | .discard _ | .zero => True
  | _ => False

/-- What every step is, as far as the queue and the worker are concerned. -/
private theorem iact_acc {src0 : S} {lossy : Prop} {hist : List (IOut B)} {s s1 : ISt S B} {a o} (h : Acc p cfg src0 lossy (departed hist) s.main) (hp : Plain s)
    (ho : a ≠ .reset ∧ a ≠ .shutdown) (hl : a = .worker .eosTimeout → lossy) (ha : iact p cfg a s = some (s1, o)) :
    Acc p cfg src0 lossy (departed (hist ++ [o])) s1.main ∧ Plain s1 := by
  rw [departed_append]
  have quiet : ∀ o : IOut B, departed [o] = [] → Acc p cfg src0 lossy (departed hist) s1.main → Acc p cfg src0 lossy (departed hist ++ departed [o]) s1.main := by
    intro o e h; rwa [e, List.append_nil]
  cases a with
  | worker a =>
    simp only [iact] at ha
    split at ha
    · rename_i hw
      cases hact : act p cfg a s.main with
      | none => rw [hact] at ha; simp at ha
      | some r =>
        rw [hact] at ha
        simp only [Option.map_some, Option.some.injEq, Prod.mk.injEq] at ha
        obtain ⟨rfl, rfl⟩ := ha
        have hq : ∃ outs : List (Out B), leftQueue outs = departed hist :=
          ⟨(departed hist).map (fun x => Out.removed x), by simp [leftQueue, List.filterMap_map]⟩
        obtain ⟨outs, ho⟩ := hq
        have hs := Acc.step (hist := outs) (cfg := cfg) (by rw [ho]; exact h) (by cases a <;> first | trivial | simp [Action.isWorker] at hw)
          (fun he => hl (by rw [he])) hact
        rw [leftQueue_append, ho] at hs
        have : leftQueue [r.2] = [] := by
          obtain ⟨s2, o2⟩ := r
          cases a <;> simp [Action.isWorker] at hw <;> simp only [act] at hact <;> (try unfold fetchStep at hact) <;> (repeat' split at hact) <;>
            simp at hact <;> obtain ⟨rfl, rfl⟩ := hact <;> rfl
        rw [this] at hs
        exact ⟨quiet _ rfl (by simpa using hs), hp⟩
    · simp at ha
  | reset => simp at ho
  | shutdown => simp at ho
  | get n =>
    simp only [iact] at ha
    split at ha <;> simp at ha
    split at ha
    · obtain ⟨rfl, rfl⟩ := ha; exact ⟨quiet _ rfl h, trivial⟩
    · obtain ⟨rfl, rfl⟩ := ha; exact ⟨quiet _ rfl h, hp⟩
  | nextEpisode =>
    simp only [iact] at ha
    repeat' split at ha
    all_goals simp at ha
    all_goals
      obtain ⟨rfl, rfl⟩ := ha
      first
        | exact ⟨quiet _ rfl h, trivial⟩
        | exact ⟨quiet _ rfl h, hp⟩
  | timeout =>
    simp only [iact] at ha
    split at ha <;> simp at ha
    all_goals
      obtain ⟨rfl, rfl⟩ := ha
      exact ⟨quiet _ rfl h, trivial⟩
  | interrupt =>
    simp only [iact] at ha
    split at ha <;> simp at ha
    obtain ⟨rfl, rfl⟩ := ha
    exact ⟨quiet _ rfl h, trivial⟩
  | step =>
    simp only [iact, istep] at ha
    unfold Plain at hp
    cases hpc : s.pc <;> rw [hpc] at ha hp <;> simp only at ha hp
    · simp at ha
    · simp at ha; obtain ⟨rfl, rfl⟩ := ha
      refine ⟨quiet _ rfl h, ?_⟩
      unfold Plain afterStart
      dsimp only
      cases s.flag <;> simp
      rename_i n; cases n <;> trivial
    · simp at ha; obtain ⟨rfl, rfl⟩ := ha; exact ⟨quiet _ rfl h, trivial⟩
    · rename_i n
      split at ha <;> simp at ha <;> obtain ⟨rfl, rfl⟩ := ha
      · exact ⟨quiet _ rfl h, trivial⟩
      · exact ⟨quiet _ rfl h.startWorker, by cases n <;> trivial⟩
    · split at ha
      · split at ha <;> simp at ha <;> obtain ⟨rfl, rfl⟩ := ha <;> exact ⟨quiet _ rfl h, trivial⟩
      · simp at ha; obtain ⟨rfl, rfl⟩ := ha; exact ⟨quiet _ rfl h, trivial⟩
    · split at ha <;> simp at ha
      rename_i x q hq
      obtain ⟨rfl, rfl⟩ := ha
      exact ⟨h.consume hq rfl rfl rfl rfl rfl, trivial⟩
    · simp at ha; obtain ⟨rfl, rfl⟩ := ha; exact ⟨quiet _ rfl (h.congr rfl rfl rfl rfl rfl), trivial⟩
    · split at ha <;> simp at ha <;> obtain ⟨rfl, rfl⟩ := ha <;> exact ⟨quiet _ rfl h, trivial⟩
    · rename_i k
      split at ha <;> simp at ha
      · rename_i q hq
        obtain ⟨rfl, rfl⟩ := ha
        exact ⟨h.consume hq rfl rfl rfl rfl rfl, trivial⟩
      · rename_i b q hq
        obtain ⟨rfl, rfl⟩ := ha
        refine ⟨h.consume hq rfl rfl rfl rfl rfl, ?_⟩
        unfold Plain
        dsimp only
        by_cases hk : k ≤ 1
        · rw [if_pos hk]; trivial
        · rw [if_neg hk]; trivial
    · simp at ha; obtain ⟨rfl, rfl⟩ := ha; exact ⟨quiet _ rfl (h.congr rfl rfl rfl rfl rfl), trivial⟩

private theorem irun_acc {src0 : S} {as : List IAction} {s : ISt S B} {outs} (hr : .reset ∉ as) (hsd : .shutdown ∉ as)
    (h : irun p cfg as (iinit src0) = some (s, outs)) : Acc p cfg src0 (.worker .eosTimeout ∈ as) (departed outs) s.main := by
  have := irun_invariant (p := p) (cfg := cfg) (fun hist s => Acc p cfg src0 (.worker .eosTimeout ∈ as) (departed hist) s.main ∧ Plain s)
    (fun a => a ∈ as) (fun _ _ _ _ _ h hok ha => iact_acc h.1 h.2 ⟨fun e => hr (e ▸ hok), fun e => hsd (e ▸ hok)⟩ (fun e => e ▸ hok) ha) (s := iinit src0) (hist := [])
    ⟨⟨[], src0, 0, ⟨.nil _ _, Nat.zero_le _⟩, rfl, rfl, rfl, rfl, rfl, rfl⟩, trivial⟩ (fun a ha => ha) h
  simpa using this.1

/-- The answers and the item in hand are among the items taken, in order, and no more are missing than there were interruptions. -/
private def Tally (hist : List (IOut B)) (s : ISt S B) : Prop :=
  answered hist ++ holding s.pc <+ departed hist ∧ tookCount hist ≤ (answered hist).length + (holding s.pc).length + interruptions hist

private theorem Tally.quiet {hist : List (IOut B)} {s s1 : ISt S B} {o : IOut B} (h : Tally hist s) (h1 : answered [o] ++ holding s1.pc = holding s.pc)
    (h2 : departed [o] = []) (h3 : tookCount [o] = 0) (h4 : interruptions [o] = 0) : Tally (hist ++ [o]) s1 := by
  unfold Tally at *
  rw [answered_append, departed_append, tookCount_append, interruptions_append, h2, h3, h4, List.append_assoc, h1]
  refine ⟨by simpa using h.1, ?_⟩
  have := h.2
  have h5 := congrArg List.length h1
  simp only [List.length_append] at *
  omega

private theorem Tally.step {hist : List (IOut B)} {s s1 : ISt S B} {a o} (h : Tally hist s) (ha : iact p cfg a s = some (s1, o)) : Tally (hist ++ [o]) s1 := by
  have lost : ∀ x, departed [o] = [x] → answered [o] ++ holding s1.pc = holding s.pc → tookCount [o] = 0 → interruptions [o] = 0 → Tally (hist ++ [o]) s1 := by
    intro x h1 h2 h3 h4
    unfold Tally at *
    rw [answered_append, departed_append, tookCount_append, interruptions_append, h1, h3, h4, List.append_assoc, h2]
    refine ⟨h.1.trans (List.sublist_append_left _ _), ?_⟩
    have := h.2
    have h5 := congrArg List.length h2
    simp only [List.length_append] at *
    omega
  cases a with
  | worker a =>
    simp only [iact] at ha
    split at ha
    · cases hact : act p cfg a s.main with
      | none => rw [hact] at ha; simp at ha
      | some r =>
        rw [hact] at ha
        simp only [Option.map_some, Option.some.injEq, Prod.mk.injEq] at ha
        obtain ⟨rfl, rfl⟩ := ha
        exact h.quiet rfl rfl rfl rfl
    · simp at ha
  | interrupt =>
    simp only [iact] at ha
    split at ha <;> simp at ha
    obtain ⟨rfl, rfl⟩ := ha
    unfold Tally at *
    rw [answered_append, departed_append, tookCount_append, interruptions_append]
    refine ⟨?_, ?_⟩
    · show answered hist ++ [] ++ [] <+ departed hist ++ []
      simp only [List.append_nil]
      exact (List.sublist_append_left _ _).trans h.1
    · have h1 : (holding s.pc).length ≤ 1 := by cases s.pc <;> simp [holding]
      have := h.2
      show tookCount hist + 0 ≤ (answered hist ++ []).length + 0 + (interruptions hist + 1)
      simp only [List.append_nil]
      omega
  | step =>
    simp only [iact, istep] at ha
    cases hpc : s.pc <;> rw [hpc] at ha <;> simp only at ha
    case wait =>
      split at ha <;> simp at ha
      obtain ⟨rfl, rfl⟩ := ha
      unfold Tally at *
      rw [hpc] at h
      rw [answered_append, departed_append, tookCount_append, interruptions_append]
      simp only [holding, List.append_nil, List.length_nil, Nat.add_zero] at h
      refine ⟨?_, ?_⟩
      · simp only [holding, answered, departed, List.filterMap_cons, List.filterMap_nil, List.append_nil]
        exact h.1.append (List.Sublist.refl _)
      · simp only [holding, answered, tookCount, interruptions, List.filterMap_cons, List.filterMap_nil, List.append_nil, List.countP_cons, List.countP_nil,
          List.length_cons, List.length_nil] at *
        simp
        omega
    case started n =>
      simp at ha; obtain ⟨rfl, rfl⟩ := ha
      refine h.quiet ?_ rfl rfl rfl
      rw [hpc]
      dsimp only
      cases s.flag <;> cases n <;> rfl
    case start n =>
      split at ha <;> simp at ha <;> obtain ⟨rfl, rfl⟩ := ha
      · exact h.quiet (by rw [hpc]; rfl) rfl rfl rfl
      · exact h.quiet (by rw [hpc]; cases n <;> rfl) rfl rfl rfl
    case discard k =>
      split at ha <;> simp at ha <;> obtain ⟨rfl, rfl⟩ := ha
      · exact lost _ rfl (by rw [hpc]; rfl) rfl rfl
      · refine lost _ rfl ?_ rfl rfl
        rw [hpc]
        dsimp only
        split <;> rfl
    all_goals first
      | (simp at ha; obtain ⟨rfl, rfl⟩ := ha; exact h.quiet (by rw [hpc]; rfl) rfl rfl rfl)
      | (repeat' split at ha
         all_goals first
           | (simp at ha; done)
           | (simp at ha; obtain ⟨rfl, rfl⟩ := ha
              first
                | exact h.quiet (by rw [hpc]; rfl) rfl rfl rfl
                | exact lost _ rfl (by rw [hpc]; rfl) rfl rfl))
  | get n =>
    simp only [iact] at ha
    split at ha <;> simp at ha
    rename_i hpc
    split at ha <;> obtain ⟨rfl, rfl⟩ := ha
    · exact h.quiet (by rw [hpc]; rfl) rfl rfl rfl
    · exact h.quiet (by rw [hpc]; rfl) rfl rfl rfl
  | nextEpisode =>
    simp only [iact] at ha
    split at ha
    · rename_i hpc
      split at ha <;> simp at ha <;> obtain ⟨rfl, rfl⟩ := ha
      · exact h.quiet (by rw [hpc]; rfl) rfl rfl rfl
      · refine h.quiet ?_ rfl rfl rfl
        rw [hpc]
        dsimp only
        split <;> rfl
    · simp at ha
  | timeout =>
    simp only [iact] at ha
    split at ha <;> simp at ha
    · rename_i hpc _
      obtain ⟨rfl, rfl⟩ := ha
      exact h.quiet (by rw [hpc]; rfl) rfl rfl rfl
    · rename_i hpc
      obtain ⟨rfl, rfl⟩ := ha
      exact h.quiet (by rw [hpc]; rfl) rfl rfl rfl
  | _ =>
    simp only [iact] at ha
    split at ha <;> simp at ha
    rename_i hpc
    obtain ⟨rfl, rfl⟩ := ha
    exact h.quiet (by rw [hpc]; rfl) rfl rfl rfl

/-- **C177** (partial). `get_batch` and `next_episode` are called any number of times and interrupted anywhere, under every order of the steps of both threads. The items
that have left the queue are, in order, the batches of the wrapped scheduler followed by one signal at its end, up to where they have got (one batch may be missing if the
`put` of the signal timed out, as in C30). The answers of `get_batch` are some of them, in order; of those that `get_batch` has taken at most one is missing for each
interruption, besides the one it may have in hand. -/
theorem C177_loses_one_partial (p : Src S B) (cfg : Cfg) (src0 : S) (as : List IAction) (hr : .reset ∉ as) (hsd : .shutdown ∉ as) (s : ISt S B) (outs : List (IOut B))
    (h : irun p cfg as (iinit src0) = some (s, outs)) :
    (∃ bs src k, Produces p src0 0 bs src k ∧
      (departed outs <+: bs.map (fun q => some q.2) ∨ (p.getBatch src).1 = .error .stopIteration ∧
        (departed outs = bs.map (fun q => some q.2) ++ [none] ∨
          .worker .eosTimeout ∈ as ∧ ∃ i, i < bs.length ∧ bs.length ≤ i + max 1 cfg.bufferSize ∧ departed outs <+: (bs.map (fun q => some q.2)).eraseIdx i ++ [none]))) ∧
    answered outs <+ departed outs ∧ tookCount outs ≤ (answered outs).length + (holding s.pc).length + interruptions outs := by
  refine ⟨?_, ?_⟩
  · obtain ⟨bs, src, k, ⟨hp, _⟩, hi⟩ := irun_acc hr hsd h
    refine ⟨bs, src, k, hp, ?_⟩
    have close : ((p.getBatch src).1 = .error .stopIteration ∧ s.main.started = true ∧
        (departed outs ++ s.main.queue = bs.map (fun q => some q.2) ++ [none] ∨
          .worker .eosTimeout ∈ as ∧ ∃ i, i < bs.length ∧ bs.length ≤ i + max 1 cfg.bufferSize ∧
            departed outs ++ s.main.queue = (bs.map (fun q => some q.2)).eraseIdx i ++ [none])) →
        (departed outs <+: bs.map (fun q => some q.2) ∨ (p.getBatch src).1 = .error .stopIteration ∧
        (departed outs = bs.map (fun q => some q.2) ++ [none] ∨
          .worker .eosTimeout ∈ as ∧ ∃ i, i < bs.length ∧ bs.length ≤ i + max 1 cfg.bufferSize ∧ departed outs <+: (bs.map (fun q => some q.2)).eraseIdx i ++ [none])) := by
      rintro ⟨h1, _, h2 | ⟨h2, i, l1, l2, h3⟩⟩
      · rcases List.eq_nil_or_concat s.main.queue with hq | ⟨q, x, hq⟩
        · exact .inr ⟨h1, .inl (by rw [hq] at h2; simpa using h2)⟩
        · rw [hq, List.concat_eq_append, ← List.append_assoc] at h2
          exact .inl ⟨q, List.append_inj_left' h2 rfl⟩
      · exact .inr ⟨h1, .inr ⟨h2, i, l1, l2, ⟨_, h3⟩⟩⟩
    cases hw : s.main.w <;> rw [hw] at hi <;> simp only at hi
    · exact .inl (by rw [hi.2.2.2.1]; exact List.nil_prefix)
    · exact .inl ⟨_, hi.2.2.2⟩
    · exact .inl ⟨_, hi.2.2.2⟩
    · exact .inl ⟨_, by rw [← hi.2.2.2, List.append_assoc]⟩
    · exact .inl ⟨_, hi.2.2⟩
    · exact .inl ⟨_, hi.2.2.2⟩
    · exact close hi
    · exact close hi
    · exact .inl ⟨_, hi.2.2.1⟩
  · have := irun_invariant (p := p) (cfg := cfg) (fun hist s => Tally hist s) (fun _ => True) (fun _ _ _ _ _ h _ ha => h.step ha) (s := iinit src0) (hist := [])
      ⟨List.Sublist.refl _, Nat.le_refl _⟩ (fun _ _ => trivial) h
    rw [List.nil_append] at this
    exact ⟨(List.sublist_append_left _ _).trans this.1, this.2⟩

private theorem worker_same {s s1 : St S B} {a o} (hw : a.isWorker = true) (ha : act p cfg a s = some (s1, o)) : s1.started = s.started := by
  cases a with
  | fetch =>
    cases hw : s.w <;> simp only [act, hw] at ha <;> try contradiction
    simp only [Option.some.injEq] at ha
    rcases fetchStep_cases (p := p) s with ⟨b, src, he⟩ | ⟨w, src, he, hw'⟩ <;> rw [he] at ha <;> simp at ha <;> obtain ⟨rfl, rfl⟩ := ha <;> rfl
  | _ =>
    simp only [Action.isWorker] at hw; try contradiction
    all_goals simp only [act] at ha
    all_goals repeat' split at ha
    all_goals try contradiction
    all_goals
      simp at ha
      obtain ⟨rfl, rfl⟩ := ha
      rfl

private def Startable (hist : List (IOut B)) (s : ISt S B) : Prop :=
  .runtimeError ∉ hist ∧ (s.main.started = true → s.flag = true) ∧
  match s.pc with
  | .mark _ => s.main.started = false
  | .start _ => s.main.started = false ∧ s.flag = true
  | .drain | .join | .clear | .source | .counter | .unmark | .unstop | .queue | .thread => False
  | _ => True

private theorem Startable.step {hist : List (IOut B)} {s s1 : ISt S B} {a o} (h : Startable hist s) (hok : a ≠ .reset) (ha : iact p cfg a s = some (s1, o)) :
    Startable (hist ++ [o]) s1 := by
  obtain ⟨h1, h2, h3⟩ := h
  have add : ∀ o : IOut B, o ≠ .runtimeError → .runtimeError ∉ hist ++ [o] := by
    intro o ho
    simp only [List.mem_append, List.mem_singleton, not_or]
    exact ⟨h1, fun e => ho e.symm⟩
  cases a with
  | worker a =>
    simp only [iact] at ha
    split at ha
    · rename_i hw
      cases hact : act p cfg a s.main with
      | none => rw [hact] at ha; simp at ha
      | some r =>
        rw [hact] at ha
        simp only [Option.map_some, Option.some.injEq, Prod.mk.injEq] at ha
        obtain ⟨rfl, rfl⟩ := ha
        have e := worker_same hw hact
        refine ⟨add _ (by simp), by rw [e]; exact h2, ?_⟩
        rw [e]
        exact h3
    · simp at ha
  | reset => simp at hok
  | step =>
    simp only [iact, istep] at ha
    cases hpc : s.pc <;> rw [hpc] at ha h3 <;> simp only at ha h3
    case started n =>
      simp at ha; obtain ⟨rfl, rfl⟩ := ha
      refine ⟨add _ (by simp), h2, ?_⟩
      dsimp only
      cases hf : s.flag with
      | true => cases n <;> trivial
      | false =>
        cases hst : s.main.started with
        | true => rw [hst, hf] at h2; simp at h2
        | false => simp
    case mark n => simp at ha; obtain ⟨rfl, rfl⟩ := ha; exact ⟨add _ (by simp), fun _ => rfl, h3, rfl⟩
    case start n =>
      rw [h3.1] at ha
      simp at ha; obtain ⟨rfl, rfl⟩ := ha
      exact ⟨add _ (by simp), fun _ => h3.2, by cases n <;> trivial⟩
    all_goals
      repeat' split at ha
      all_goals first
        | (simp at ha; done)
        | (simp at ha; obtain ⟨rfl, rfl⟩ := ha; exact ⟨add _ (by simp), h2, trivial⟩)
  | _ =>
    simp only [iact] at ha
    repeat' split at ha
    all_goals first
      | (simp at ha; done)
      | (simp at ha; obtain ⟨rfl, rfl⟩ := ha; exact ⟨add _ (by simp), h2, trivial⟩)
      | (simp at ha; obtain ⟨rfl, rfl⟩ := ha; exact ⟨add _ (by simp), h2, h3⟩)

/-- **C177** (no strange exceptions). As long as `reset` is not called, no call ever fails with `RuntimeError`, wherever the calls before it were interrupted. -/
theorem C177_no_runtime_error (p : Src S B) (cfg : Cfg) (src0 : S) (as : List IAction) (hr : .reset ∉ as) (s : ISt S B) (outs : List (IOut B))
    (h : irun p cfg as (iinit src0) = some (s, outs)) : .runtimeError ∉ outs := by
  have := irun_invariant (p := p) (cfg := cfg) (fun hist s => Startable hist s) (fun a => a ∈ as)
    (fun _ _ _ _ _ h hok ha => h.step (fun e => hr (e ▸ hok)) ha) (s := iinit src0) (hist := []) ⟨by simp, fun h => absurd h (by simp [iinit, init]), trivial⟩ (fun a ha => ha) h
  simpa using this.1

/-- Nobody will ever put a batch into the queue. -/
private def Dead (hist : List (IOut B)) (s : ISt S B) : Prop :=
  (∀ b, .ret b ∉ hist) ∧ s.flag = true ∧ (∀ b, some b ∉ s.main.queue) ∧ (s.main.w = .idle ∨ s.main.w = .exited ∨ s.main.w = .loop ∧ s.main.stop = true) ∧
  (∀ b, some b ∉ holding s.pc) ∧
  match s.pc with
  | .mark _ | .start _ | .drain | .join | .clear | .source | .counter | .unmark | .unstop | .queue | .thread => False
  | _ => True

private theorem Dead.step {hist : List (IOut B)} {s s1 : ISt S B} {a o} (h : Dead hist s) (hok : a ≠ .reset) (ha : iact p cfg a s = some (s1, o)) :
    Dead (hist ++ [o]) s1 := by
  obtain ⟨h1, h2, h3, h4, h5, h6⟩ := h
  have add : ∀ o : IOut B, (∀ b, o ≠ .ret b) → ∀ b, .ret b ∉ hist ++ [o] := by
    intro o ho b
    simp only [List.mem_append, List.mem_singleton, not_or]
    exact ⟨h1 b, fun e => ho b e.symm⟩
  cases a with
  | worker a =>
    simp only [iact] at ha
    split at ha
    · rename_i hw
      rcases h4 with h4 | h4 | ⟨h4, h4'⟩
      · cases a <;> simp [Action.isWorker] at hw <;> simp [act, h4] at ha
      · cases a <;> simp [Action.isWorker] at hw <;> simp [act, h4] at ha
      · cases a <;> simp [Action.isWorker] at hw <;> simp [act, h4] at ha
        obtain ⟨rfl, rfl⟩ := ha
        rw [if_pos h4']
        exact ⟨add _ (by simp), h2, h3, .inr (.inl rfl), h5, h6⟩
    · simp at ha
  | reset => simp at hok
  | shutdown =>
    simp only [iact] at ha
    split at ha <;> simp at ha
    obtain ⟨rfl, rfl⟩ := ha
    exact ⟨add _ (by simp), h2, h3, h4.imp_right (Or.imp_right fun h => ⟨h.1, rfl⟩), by simp [holding], trivial⟩
  | step =>
    have htail : ∀ {x : Option B} {q}, s.main.queue = x :: q → ∀ b, some b ∉ q := by
      intro x q hq b hb
      exact h3 b (by rw [hq]; exact List.mem_cons_of_mem _ hb)
    simp only [iact, istep] at ha
    cases hpc : s.pc <;> rw [hpc] at ha h5 h6 <;> simp only at ha h6
    case started n =>
      rw [h2] at ha
      simp at ha; obtain ⟨rfl, rfl⟩ := ha
      exact ⟨add _ (by simp), rfl, h3, h4, by cases n <;> simp [afterStart, holding], by cases n <;> trivial⟩
    case wait =>
      split at ha <;> simp at ha
      rename_i x q hq
      obtain ⟨rfl, rfl⟩ := ha
      refine ⟨add _ (by simp), h2, htail hq, h4, ?_, trivial⟩
      intro b hb
      simp only [holding, List.mem_singleton] at hb
      exact h3 b (by rw [hq, hb]; simp)
    case count x =>
      simp at ha; obtain ⟨rfl, rfl⟩ := ha
      exact ⟨add _ (by simp), h2, h3, h4, h5, trivial⟩
    case answer x =>
      cases x with
      | some b => exact absurd (by simp [holding]) (h5 b)
      | none =>
        simp at ha; obtain ⟨rfl, rfl⟩ := ha
        exact ⟨add _ (by simp), h2, h3, h4, by simp [holding], trivial⟩
    case shutPut =>
      simp at ha; obtain ⟨rfl, rfl⟩ := ha
      refine ⟨add _ (by simp), h2, ?_, h4, by simp [holding], trivial⟩
      intro b
      dsimp only
      split
      · simp only [List.mem_append, List.mem_singleton, not_or]; exact ⟨h3 b, by simp⟩
      · exact h3 b
    case discard k =>
      split at ha <;> simp at ha
      · rename_i q hq
        obtain ⟨rfl, rfl⟩ := ha
        exact ⟨add _ (by simp), h2, htail hq, h4, by simp [holding], trivial⟩
      · rename_i b q hq
        exact absurd (by rw [hq]; simp) (h3 b)
    all_goals
      repeat' split at ha
      all_goals first
        | (simp at ha; done)
        | (simp at ha; obtain ⟨rfl, rfl⟩ := ha; exact ⟨add _ (by simp), h2, h3, h4, by simp [holding], trivial⟩)
        | (simp at ha; obtain ⟨rfl, rfl⟩ := ha; exact ⟨add _ (by simp), h2, htail (by assumption), h4, by simp [holding], trivial⟩)
  | _ =>
    simp only [iact] at ha
    repeat' split at ha
    all_goals first
      | (simp at ha; done)
      | (simp at ha; obtain ⟨rfl, rfl⟩ := ha; exact ⟨add _ (by simp), h2, h3, h4, by simp [holding], trivial⟩)
      | (simp at ha; obtain ⟨rfl, rfl⟩ := ha; exact ⟨add _ (by simp), h2, h3, h4, h5, h6⟩)

private theorem Dead.run {s s' : ISt S B} {bs : List IAction} {outs : List (IOut B)} (h : Dead [] s) (hr : .reset ∉ bs) (h' : irun p cfg bs s = some (s', outs)) (b : B) :
    .ret b ∉ outs := by
  have := irun_invariant (p := p) (cfg := cfg) (fun hist s => Dead hist s) (fun a => a ∈ bs) (fun _ _ _ _ _ h hok ha => h.step (fun e => hr (e ▸ hok)) ha) h
    (fun a ha => ha) h'
  simpa using this.1 b

/-- **C177** fails when the first call is interrupted between `self._started = True` and `self._thread.start()`: whatever the wrapped scheduler has to offer, and whatever is
called later, no batch is ever delivered unless the scheduler is reset. -/
theorem C177_refuted_start (p : Src S B) (cfg : Cfg) (src0 : S) : ∃ (as : List IAction) (s : ISt S B) (outs : List (IOut B)),
    as = [.get cfg.batchSize, .step, .step, .interrupt] ∧ irun p cfg as (iinit src0) = some (s, outs) ∧
    ∀ bs s' outs', .reset ∉ bs → irun p cfg bs s = some (s', outs') → ∀ b, .ret b ∉ outs' := by
  refine ⟨_, { iinit src0 with flag := true }, [.tau, .tau, .tau, .interrupted], rfl, ?_, ?_⟩
  · simp [irun, iact, istep, iinit]
  · exact fun bs s' outs' hr h' b => Dead.run ⟨by simp, rfl, by simp [iinit, init], .inl rfl, by simp [iinit, holding], trivial⟩ hr h' b

/-- **C177** fails when `reset` is interrupted: the stop flag is set and never cleared. If that finds the worker between two batches and the queue empty, no batch is ever delivered
unless the scheduler is reset again, whatever the wrapped scheduler has to offer. -/
theorem C177_refuted_reset (p : Src S B) (cfg : Cfg) (s : ISt S B) (hpc : s.pc = .out) (hf : s.flag = true) (hw : s.main.w = .loop) (hq : s.main.queue = []) :
    ∃ (s1 : ISt S B) (outs : List (IOut B)), irun p cfg [.reset, .interrupt] s = some (s1, outs) ∧
    ∀ bs s' outs', .reset ∉ bs → irun p cfg bs s1 = some (s', outs') → ∀ b, .ret b ∉ outs' := by
  refine ⟨{ s with main := { s.main with stop := true }, pc := .out }, [.tau, .interrupted], ?_, ?_⟩
  · simp [irun, iact, hpc]
  · exact fun bs s' outs' hr h' b => Dead.run (s := { s with main := { s.main with stop := true }, pc := .out }) ⟨by simp, hf, by simp [hq], .inr (.inr ⟨hw, rfl⟩), (fun b hb => by cases hb), trivial⟩ hr h' b

/-- **C177** fails when `reset` is interrupted after `self._started = False` and before there is a new thread: the next `get_batch` raises `RuntimeError`, because the old
thread is started a second time. -/
theorem C177_refuted_runtime (p : Src S B) (cfg : Cfg) (s : ISt S B) (hpc : s.pc = .out) (hs : s.main.started = true) (hw : s.main.w.ended = true) :
    ∃ (s1 : ISt S B) (outs : List (IOut B)),
      irun p cfg [.reset, .step, .step, .step, .step, .step, .step, .interrupt, .get cfg.batchSize, .step, .step, .step] s = some (s1, outs) ∧ .runtimeError ∈ outs := by
  cases hq : s.main.queue with
  | nil => exact ⟨_, _, by simp [irun, iact, istep, hpc, hs, hw, hq]; exact ⟨rfl, rfl⟩, by simp⟩
  | cons x q => exact ⟨_, _, by simp [irun, iact, istep, hpc, hs, hw, hq]; exact ⟨rfl, rfl⟩, by simp⟩

/-- **C177** fails for episodes: a call is interrupted after it has taken the first batch of an episode of two and before it has counted it. Then the episode consists of its
second batch and of the first one of the next episode, although nobody has called `next_episode`. -/
theorem C177_refuted_episode : EpisodesOf demoEp (0, 0) 2 ∧ ∃ (as : List IAction) (s : ISt (Nat × Nat) (Nat × Nat)) (outs : List (IOut (Nat × Nat))),
    irun demoEp ⟨4, 4⟩ as (iinit (0, 0)) = some (s, outs) ∧ .nextEpisode ∉ as ∧ interruptions outs = 1 ∧ answered outs = [some (0, 1), some (1, 0)] ∧ .episodeEnd ∈ outs := by
  refine ⟨demoEp_episodes, [.get 4, .step, .step, .step, .step] ++ (round ++ round ++ [Action.check, .fetch] ++ round).map IAction.worker ++ [.step, .interrupt] ++
    [.get 4, .step, .step, .step, .step, .step] ++ [.get 4, .step, .step, .step, .step, .step] ++ [.get 4, .step, .step], _, _, rfl, by decide, by decide, by decide, by decide⟩

private def pcOf : CPc → IPc B
  | .idle => .out
  | .getWait => .wait
  | .resetDrain => .drain
  | .resetJoin => .join
  | .shutDrain => .shutDrain
  | .shutPut => .shutPut
  | .shutJoin => .shutJoin
  | .discard k => .discard k

private def fine (s : St S B) : ISt S B := ⟨{ s with c := .idle, startup := true }, s.started, pcOf s.c⟩

private theorem worker_fine {s s1 : St S B} {a o} (hw : a.isWorker = true) (ha : act p cfg a s = some (s1, o)) :
    iact p cfg (.worker a) (fine s) = some (fine s1, .tau) ∧ o.seen = none := by
  obtain ⟨src, queue, stop, started, startup, t, w, c⟩ := s
  cases a with
  | fetch =>
    cases w <;> simp only [act] at ha <;> try contradiction
    simp only [Option.some.injEq] at ha
    unfold fetchStep at ha
    simp only [iact, Action.isWorker, if_true, act, fine, fetchStep]
    cases hg : p.getBatch src with
    | mk r src' =>
      rw [hg] at ha
      cases r with
      | ok b => simp at ha; obtain ⟨rfl, rfl⟩ := ha; exact ⟨rfl, rfl⟩
      | error e =>
        cases e
        case episodeEnd =>
          simp only at ha ⊢
          cases hL : p.episodeLength <;> rw [hL] at ha <;> simp at ha <;> obtain ⟨rfl, rfl⟩ := ha <;> exact ⟨rfl, rfl⟩
        all_goals (simp at ha; obtain ⟨rfl, rfl⟩ := ha; exact ⟨rfl, rfl⟩)
  | _ =>
    simp only [Action.isWorker] at hw; try contradiction
    all_goals simp only [act] at ha
    all_goals repeat' split at ha
    all_goals try contradiction
    all_goals
      simp at ha
      obtain ⟨rfl, rfl⟩ := ha
      simp_all [iact, act, fine, Action.isWorker, Out.seen, Nat.not_lt]
    all_goals (rename_i hq; exact ⟨.tau, if_neg (Nat.not_lt.2 hq)⟩)

private theorem act_fine {s s1 : St S B} {a o} (ha : act p cfg a s = some (s1, o)) :
    ∃ as outs, IAction.interrupt ∉ as ∧ irun p cfg as (fine s) = some (fine s1, outs) ∧ outs.filterMap IOut.seen = [o].filterMap Out.seen := by
  by_cases hw : a.isWorker = true
  · obtain ⟨h1, h2⟩ := worker_fine hw ha
    exact ⟨[.worker a], [.tau], by simp, by simp [irun, h1], by simp [h2, IOut.seen]⟩
  · obtain ⟨src, queue, stop, started, startup, t, w, c⟩ := s
    cases a <;> simp only [Action.isWorker, not_true_eq_false] at hw <;> simp only [act] at ha
    case get n =>
      cases c <;> simp only at ha <;> try contradiction
      by_cases hn : n = cfg.batchSize
      · simp only [hn, ne_eq, not_true_eq_false, if_false] at ha
        subst hn
        cases hL : p.episodeLength with
        | none =>
          rw [hL] at ha
          simp at ha; obtain ⟨rfl, rfl⟩ := ha
          cases started
          · exact ⟨[.get cfg.batchSize, .step, .step, .step, .step], _, by simp, by simp [irun, iact, istep, fine, pcOf, startWorker, afterStart, hL]; rfl, rfl⟩
          · exact ⟨[.get cfg.batchSize, .step, .step], _, by simp, by simp [irun, iact, istep, fine, pcOf, startWorker, afterStart, hL]; rfl, rfl⟩
        | some L =>
          rw [hL] at ha
          simp only at ha
          split at ha <;> rename_i ht <;> simp at ha <;> obtain ⟨rfl, rfl⟩ := ha <;> cases started
          · exact ⟨[.get cfg.batchSize, .step, .step, .step, .step], _, by simp, by simp [irun, iact, istep, fine, pcOf, startWorker, afterStart, hL, ht]; rfl, rfl⟩
          · exact ⟨[.get cfg.batchSize, .step, .step], _, by simp, by simp [irun, iact, istep, fine, pcOf, startWorker, afterStart, hL, ht]; rfl, rfl⟩
          · exact ⟨[.get cfg.batchSize, .step, .step, .step, .step], _, by simp, by simp [irun, iact, istep, fine, pcOf, startWorker, afterStart, hL, ht]; rfl, rfl⟩
          · exact ⟨[.get cfg.batchSize, .step, .step], _, by simp, by simp [irun, iact, istep, fine, pcOf, startWorker, afterStart, hL, ht]; rfl, rfl⟩
      · simp [hn] at ha; obtain ⟨rfl, rfl⟩ := ha
        exact ⟨[.get n], [.valueError], by simp, by simp [irun, iact, fine, pcOf, hn], rfl⟩
    case take =>
      cases c <;> (try contradiction)
      cases queue <;> (try contradiction)
      rename_i x q
      cases x <;> simp at ha <;> obtain ⟨rfl, rfl⟩ := ha
      · exact ⟨[.step, .step, .step], _, by simp, by simp [irun, iact, istep, fine, pcOf]; rfl, rfl⟩
      · exact ⟨[.step, .step, .step], _, by simp, by simp [irun, iact, istep, fine, pcOf]; rfl, rfl⟩
    case timeout =>
      cases c <;> (try contradiction)
      cases queue <;> (try contradiction)
      simp at ha; obtain ⟨rfl, rfl⟩ := ha
      exact ⟨[.timeout], _, by simp, by simp [irun, iact, istep, fine, pcOf]; rfl, rfl⟩
    case reset =>
      cases c <;> simp only at ha <;> try contradiction
      simp at ha; obtain ⟨rfl, rfl⟩ := ha
      exact ⟨[.reset], _, by simp, by simp [irun, iact, istep, fine, pcOf]; rfl, rfl⟩
    case resetDrain =>
      cases c <;> simp only at ha <;> try contradiction
      cases queue <;> simp at ha <;> obtain ⟨rfl, rfl⟩ := ha
      · exact ⟨[.step], _, by simp, by simp [irun, iact, istep, fine, pcOf]; rfl, rfl⟩
      · exact ⟨[.step], _, by simp, by simp [irun, iact, istep, fine, pcOf]; rfl, rfl⟩
    case join =>
      cases c <;> simp only at ha <;> try contradiction
      split at ha <;> simp at ha
      rename_i he
      obtain ⟨rfl, rfl⟩ := ha
      exact ⟨[.step, .step, .step, .step, .step, .step, .step, .step], _, by simp, by simp [irun, iact, istep, fine, pcOf, he, init]; rfl, rfl⟩
    case shutdown =>
      cases c <;> simp only at ha <;> try contradiction
      simp at ha; obtain ⟨rfl, rfl⟩ := ha
      exact ⟨[.shutdown], _, by simp, by simp [irun, iact, istep, fine, pcOf]; rfl, rfl⟩
    case shutDrain =>
      cases c <;> simp only at ha <;> try contradiction
      cases queue <;> simp at ha <;> obtain ⟨rfl, rfl⟩ := ha
      · exact ⟨[.step], _, by simp, by simp [irun, iact, istep, fine, pcOf]; rfl, rfl⟩
      · exact ⟨[.step], _, by simp, by simp [irun, iact, istep, fine, pcOf]; rfl, rfl⟩
    case shutPut =>
      cases c <;> simp only at ha <;> try contradiction
      simp at ha; obtain ⟨rfl, rfl⟩ := ha
      exact ⟨[.step], [.tau], by simp, rfl, rfl⟩
    case shutJoin =>
      cases c <;> simp only at ha <;> try contradiction
      simp at ha; obtain ⟨rfl, rfl⟩ := ha
      exact ⟨[.step], _, by simp, by simp [irun, iact, istep, fine, pcOf]; rfl, rfl⟩
    case nextEpisode =>
      cases c <;> simp only at ha <;> try contradiction
      cases hL : p.episodeLength with
      | none =>
        rw [hL] at ha
        simp at ha; obtain ⟨rfl, rfl⟩ := ha
        exact ⟨[.nextEpisode], _, by simp, by simp [irun, iact, istep, fine, pcOf, hL]; rfl, rfl⟩
      | some L =>
        rw [hL] at ha
        simp only at ha
        split at ha <;> rename_i hst <;> simp at ha <;> obtain ⟨rfl, rfl⟩ := ha
        · exact ⟨[.nextEpisode], _, by simp, by simp [irun, iact, istep, fine, pcOf, hL, hst]; rfl, rfl⟩
        · cases started
          · exact ⟨[.nextEpisode, .step, .step, .step, .step], _, by simp, by simp [irun, iact, istep, fine, pcOf, startWorker, afterStart, hL]; rfl, rfl⟩
          · have ht : ¬ t < L := by simpa using hst
            exact ⟨[.nextEpisode, .step, .step], _, by simp, by simp [irun, iact, istep, fine, pcOf, startWorker, afterStart, hL, ht]; rfl, rfl⟩
    case discard =>
      cases c <;> (try contradiction)
      rename_i k
      cases queue <;> (try contradiction)
      rename_i x q
      cases x with
      | none =>
        simp at ha; obtain ⟨rfl, rfl⟩ := ha
        exact ⟨[.step, .step], _, by simp, by simp [irun, iact, istep, fine, pcOf]; rfl, rfl⟩
      | some b =>
        simp only at ha
        split at ha <;> rename_i hk <;> simp at ha <;> obtain ⟨rfl, rfl⟩ := ha
        · exact ⟨[.step, .step], _, by simp, by simp [irun, iact, istep, fine, pcOf, hk]; rfl, rfl⟩
        · exact ⟨[.step], _, by simp, by simp [irun, iact, istep, fine, pcOf, hk]; rfl, rfl⟩
    case discardTimeout =>
      cases c <;> simp only at ha <;> try contradiction
      simp at ha; obtain ⟨rfl, rfl⟩ := ha
      exact ⟨[.timeout, .step], _, by simp, by simp [irun, iact, istep, fine, pcOf]; rfl, rfl⟩

/-- **C177** (the machine is the code). Every schedule of the model without interruptions (C25 ff.) is one of this machine, and shows the user the same. -/
theorem C177_agrees (p : Src S B) (cfg : Cfg) (src0 : S) (as : List Action) (s : St S B) (outs : List (Out B)) (h : run p cfg as (init src0) = some (s, outs)) :
    ∃ as' s' outs', IAction.interrupt ∉ as' ∧ irun p cfg as' (iinit src0) = some (s', outs') ∧ outs'.filterMap IOut.seen = outs.filterMap Out.seen ∧
      s'.main.src = s.src ∧ s'.main.queue = s.queue ∧ s'.main.stop = s.stop ∧ s'.main.t = s.t ∧ s'.main.w = s.w ∧ (s'.pc = .out ↔ s.c = .idle) := by
  suffices ∀ s0, run p cfg as s0 = some (s, outs) → ∃ as' outs', IAction.interrupt ∉ as' ∧ irun p cfg as' (fine s0) = some (fine s, outs') ∧
      outs'.filterMap IOut.seen = outs.filterMap Out.seen by
    obtain ⟨as', outs', h1, h2, h3⟩ := this _ h
    refine ⟨as', fine s, outs', h1, h2, h3, rfl, rfl, rfl, rfl, rfl, ?_⟩
    show pcOf s.c = .out ↔ _
    cases s.c <;> simp [pcOf]
  clear h
  induction as generalizing outs with
  | nil =>
    intro s0 h
    rw [run_nil] at h
    simp at h
    obtain ⟨rfl, rfl⟩ := h
    exact ⟨[], [], by simp, rfl, rfl⟩
  | cons a as ih =>
    intro s0 h
    obtain ⟨s1, o, os, ha, hr, rfl⟩ := run_cons h
    obtain ⟨as1, outs1, k1, k2, k3⟩ := act_fine ha
    obtain ⟨as2, outs2, l1, l2, l3⟩ := ih _ s1 hr
    refine ⟨as1 ++ as2, outs1 ++ outs2, by simp [k1, l1], irun_append k2 l2, ?_⟩
    rw [List.filterMap_append, k3, l3, ← List.filterMap_append]
    rfl

/-- A call is interrupted after it has taken the first batch; the next ones get the second and the third, and one of them is interrupted while it waits. -/
example : ∃ (s : ISt Nat Nat) (outs : List (IOut Nat)),
    irun demoSrc ⟨4, 2⟩ ([.get 4, .step, .step, .step, .step] ++ (round ++ round).map .worker ++ [.step, .interrupt, .get 4, .step, .step, .interrupt, .get 4, .step, .step, .step,
      .step, .step] ++ round.map .worker ++ [.get 4, .step, .step, .step, .step, .step]) (iinit 0) = some (s, outs) ∧
    answered outs = [some 1, some 2] ∧ departed outs = [some 0, some 1, some 2] ∧ interruptions outs = 2 :=
  ⟨_, _, rfl, rfl, rfl, rfl⟩

/-- A first call without a thread, a `reset` interrupted while it joins, and a second one that is not: afterwards everything is as new. -/
example : ∃ (s s' : ISt Nat Nat) (outs outs' : List (IOut Nat)),
    irun demoSrc ⟨4, 2⟩ ([.get 4, .step, .step, .step, .step] ++ (round ++ [Action.check, .fetch]).map .worker ++ [.step, .step, .step, .reset, .step, .interrupt]) (iinit 0) =
      some (s, outs) ∧ s.main.w = .put 1 ∧
    irun demoSrc ⟨4, 2⟩ [.reset, .worker .put, .step, .worker .check, .step, .step, .step, .step, .step, .step, .step, .step] s = some (s', outs') ∧ s'.main = init 0 :=
  ⟨_, _, _, _, rfl, rfl, rfl, rfl⟩

/-- The hypotheses of `C177_refuted_reset` and `C177_refuted_runtime` are met: by a scheduler that has delivered its first batch, and by one that has come to the end. -/
example : (∃ (s : ISt Nat Nat) (outs : List (IOut Nat)),
    irun demoSrc ⟨4, 2⟩ ([.get 4, .step, .step, .step, .step] ++ round.map .worker ++ [.step, .step, .step]) (iinit 0) = some (s, outs) ∧
      s.pc = .out ∧ s.flag = true ∧ s.main.w = .loop ∧ s.main.queue = [] ∧ s.main.src = 1) ∧
    (∃ (s : ISt Unit Nat) (outs : List (IOut Nat)),
      irun (demoFail .stopIteration) ⟨4, 2⟩ ([.get 4, .step, .step, .step, .step] ++ [Action.check, .fetch, .eosPut, .eosStop].map .worker ++ [.step, .step, .step]) (iinit ()) =
        some (s, outs) ∧ s.pc = .out ∧ s.main.started = true ∧ s.main.w.ended = true) :=
  ⟨⟨_, _, rfl, rfl, rfl, rfl, rfl, rfl⟩, ⟨_, _, rfl, rfl, rfl, rfl⟩⟩

end Verif.Prefetch
