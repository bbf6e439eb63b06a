import Verif.Spec.Timed
import Verif.Proofs.PrefetchInv
import Mathlib.Tactic.Linarith
import Mathlib.Tactic.Positivity
import Mathlib.Tactic.Ring
/-!
# Lemmas on the prefetching scheduler with time
-/

namespace Verif.Timed
open Verif Verif.Prefetch
variable {S B : Type} {p : Src S B} {cfg : Cfg} {T : Times}

theorem tact_some {t : ℚ} {a : Action} {x x' : TSt S B} {o : Out B} (h : tact p cfg T t a x = some (x', o)) :
    x.now ≤ t ∧ due T x t a = true ∧ ∃ s', act p cfg a x.s = some (s', o) ∧ x' = stamp cfg t a x s' := by
  unfold tact at h
  split at h
  · rename_i hc
    refine ⟨hc.1, hc.2, ?_⟩
    rw [Option.map_eq_some_iff] at h
    obtain ⟨⟨s', o'⟩, h1, h2⟩ := h
    simp only [Prod.mk.injEq] at h2
    obtain ⟨rfl, rfl⟩ := h2
    exact ⟨s', h1, rfl⟩
  · cases h

theorem Runs.run {ok : TSt S B → ℚ → Prop} {x x' : TSt S B} {as : List (ℚ × Action)} {os : List (Out B)} (h : Runs p cfg T ok x as os x') :
    Prefetch.run p cfg (as.map Prod.snd) x.s = some (x'.s, os) := by
  induction h with
  | nil x => rfl
  | cons hok h rest ih =>
    obtain ⟨_, _, s', h1, rfl⟩ := tact_some h
    rw [List.map_cons, Prefetch.run]
    simp only [h1]
    change Prefetch.run p cfg _ s' = _ at ih
    rw [ih]

/-- What every step keeps holds at the end of every run. -/
theorem Runs.invariant {ok : TSt S B → ℚ → Prop} (I : TSt S B → Prop) (good : Action → Prop)
    (hstep : ∀ x t a x' o, I x → ok x t → good a → tact p cfg T t a x = some (x', o) → I x')
    {x x' : TSt S B} {as : List (ℚ × Action)} {os : List (Out B)} (h : Runs p cfg T ok x as os x') (hg : ∀ q ∈ as, good q.2) (h0 : I x) : I x' := by
  induction h with
  | nil => exact h0
  | cons hok h rest ih => exact ih (fun q hq => hg q (List.mem_cons_of_mem _ hq)) (hstep _ _ _ _ _ h0 hok (hg _ List.mem_cons_self) h)

theorem Runs.mono {ok ok' : TSt S B → ℚ → Prop} (hk : ∀ x t, ok x t → ok' x t) {x x' : TSt S B} {as : List (ℚ × Action)} {os : List (Out B)}
    (h : Runs p cfg T ok x as os x') : Runs p cfg T ok' x as os x' := by
  induction h with
  | nil => exact .nil _
  | cons hok h rest ih => exact .cons (hk _ _ hok) h ih

/-- What is shown at some point is shown by a step in between. -/
theorem Runs.split {ok : TSt S B → ℚ → Prop} {x x' : TSt S B} {as : List (ℚ × Action)} {os : List (Out B)} (h : Runs p cfg T ok x as os x')
    {pre post : List (Out B)} {o : Out B} (he : os = pre ++ o :: post) :
    ∃ as1 t a as2 y y', as = as1 ++ (t, a) :: as2 ∧ Runs p cfg T ok x as1 pre y ∧ ok y t ∧ tact p cfg T t a y = some (y', o) ∧ Runs p cfg T ok y' as2 post x' := by
  induction h generalizing pre with
  | nil => cases pre <;> simp at he
  | @cons x x1 x2 t a o1 as os hok h rest ih =>
    cases pre with
    | nil =>
      simp only [List.nil_append, List.cons.injEq] at he
      obtain ⟨rfl, rfl⟩ := he
      exact ⟨[], t, a, as, x, x1, rfl, .nil _, hok, h, rest⟩
    | cons o' pre =>
      simp only [List.cons_append, List.cons.injEq] at he
      obtain ⟨rfl, rfl⟩ := he
      obtain ⟨as1, t', a', as2, y, y', e, h1, h2, h3, h4⟩ := ih rfl
      exact ⟨(t, a) :: as1, t', a', as2, y, y', by rw [e]; rfl, .cons hok h h1, h2, h3, h4⟩

/-- The same for a step. -/
theorem Runs.splitAt {ok : TSt S B → ℚ → Prop} {x x' : TSt S B} {as : List (ℚ × Action)} {os : List (Out B)} (h : Runs p cfg T ok x as os x')
    {as1 as2 : List (ℚ × Action)} {t : ℚ} {a : Action} (he : as = as1 ++ (t, a) :: as2) :
    ∃ os1 o os2 y y', os = os1 ++ o :: os2 ∧ Runs p cfg T ok x as1 os1 y ∧ ok y t ∧ tact p cfg T t a y = some (y', o) ∧ Runs p cfg T ok y' as2 os2 x' := by
  induction h generalizing as1 with
  | nil => cases as1 <;> simp at he
  | @cons x x1 x2 t' a' o1 as os hok h rest ih =>
    cases as1 with
    | nil =>
      simp only [List.nil_append, List.cons.injEq, Prod.mk.injEq] at he
      obtain ⟨⟨rfl, rfl⟩, rfl⟩ := he
      exact ⟨[], o1, os, x, x1, rfl, .nil _, hok, h, rest⟩
    | cons q as1 =>
      simp only [List.cons_append, List.cons.injEq] at he
      obtain ⟨rfl, rfl⟩ := he
      obtain ⟨os1, o, os2, y, y', e, h1, h2, h3, h4⟩ := ih rfl
      exact ⟨o1 :: os1, o, os2, y, y', by rw [e]; rfl, .cons hok h h1, h2, h3, h4⟩

/-! ## Waiting for the worker -/

/-- The consumer waits for an item. -/
def Waiting (c : CPc) : Prop := c = .getWait ∨ ∃ k, c = .discard k

/-- The worker will not put anything into the queue any more. -/
def Over (w : WPc B) : Prop := w = .eosStop ∨ w = .exited ∨ ∃ e, w = .died e

/-- If the worker keeps its times, there is an item in the empty queue by `u`. -/
def Coming (p : Src S B) (v : Speed) (x : TSt S B) (u : ℚ) : Prop :=
  match x.s.w with
  | .loop => ∃ m, EndsInARow p m x.s.src ∧ x.wSince + v.step + (m * (v.load + v.step) + v.load + v.step) ≤ u
  | .fetch => ∃ m, EndsInARow p m x.s.src ∧ x.wSince + (m * (v.load + v.step) + v.load + v.step) ≤ u
  | .put _ | .eos => x.wSince + v.step ≤ u ∧ x.room + v.step ≤ u
  | .eosForce => x.wSince + v.step ≤ u
  | _ => False

/-- The worker, if it is alive, will come with an item before `delay` has passed since `t`. -/
theorem fresh {v : Speed} (hl : 0 ≤ v.load) (hs : 0 ≤ v.step) {n : Nat} {x : TSt S B} {t : ℚ} (hw : x.wSince ≤ t) (hr : x.room ≤ t) (hi : x.s.w ≠ .idle)
    (hn : x.s.w = .loop ∨ x.s.w = .fetch → EndsInARow p n x.s.src) : Over x.s.w ∨ Coming p v x (t + delay v n) := by
  have hn0 : (0 : ℚ) ≤ n := Nat.cast_nonneg n
  have h1 : 0 ≤ (n : ℚ) * v.load := mul_nonneg hn0 hl
  have h2 : 0 ≤ (n : ℚ) * v.step := mul_nonneg hn0 hs
  unfold Over Coming delay
  cases hxw : x.s.w with
  | idle => exact absurd hxw hi
  | loop => exact .inr ⟨n, hn (.inl hxw), by nlinarith⟩
  | fetch => exact .inr ⟨n, hn (.inr hxw), by nlinarith⟩
  | put b => exact .inr ⟨by nlinarith, by nlinarith⟩
  | eos => exact .inr ⟨by nlinarith, by nlinarith⟩
  | eosForce => exact .inr (by show _ ≤ _; nlinarith)
  | eosStop => exact .inl (.inl rfl)
  | exited => exact .inl (.inr (.inl rfl))
  | died e => exact .inl (.inr (.inr ⟨e, rfl⟩))

/-- While the queue is empty, time does not pass the moment at which an item is to come. -/
theorem Coming.by {v : Speed} (hl : 0 ≤ v.load) (hs : 0 ≤ v.step) {x : TSt S B} {u t : ℚ} (h : Coming p v x u) (hq : x.s.queue = []) (hb : 0 < cfg.bufferSize)
    (hp : WorkerPrompt cfg T v x t) : t ≤ u := by
  unfold Coming at h
  unfold WorkerPrompt workerBy at hp
  cases hw : x.s.w with
  | loop =>
    rw [hw] at h hp
    obtain ⟨m, _, h⟩ := h
    have := hp _ rfl
    have h1 : 0 ≤ (m : ℚ) * (v.load + v.step) := mul_nonneg (Nat.cast_nonneg m) (add_nonneg hl hs)
    linarith
  | fetch =>
    rw [hw] at h hp
    obtain ⟨m, _, h⟩ := h
    have := hp _ rfl
    have h1 : 0 ≤ (m : ℚ) * (v.load + v.step) := mul_nonneg (Nat.cast_nonneg m) (add_nonneg hl hs)
    linarith
  | put b =>
    rw [hw] at h hp
    have := hp _ (by simp [hq, hb]; rfl)
    have hm : max x.wSince x.room + v.step ≤ u := by rcases max_cases x.wSince x.room with ⟨e, _⟩ | ⟨e, _⟩ <;> rw [e] <;> [exact h.1; exact h.2]
    linarith
  | eos =>
    rw [hw] at h hp
    have := hp _ (by simp [hq, hb]; rfl)
    have hm : max x.wSince x.room + v.step ≤ u := by rcases max_cases x.wSince x.room with ⟨e, _⟩ | ⟨e, _⟩ <;> rw [e] <;> [exact h.1; exact h.2]
    linarith
  | eosForce =>
    rw [hw] at h hp
    have := hp _ rfl
    have h : x.wSince + v.step ≤ u := h
    linarith
  | _ => rw [hw] at h; exact h.elim

/-- A step of the worker while the queue is empty: it brings an item, or the item is still to come, or there will be none. -/
theorem Coming.step {v : Speed} (hl : 0 ≤ v.load) (hs : 0 ≤ v.step) {x x' : TSt S B} {u t : ℚ} {a : Action} {o : Out B} (h : Coming p v x u) (hq : x.s.queue = [])
    (hb : 0 < cfg.bufferSize) (hr : x.room ≤ x.now) (hstop : x.s.stop = false) (hp : WorkerPrompt cfg T v x t) (ha : a.isWorker = true)
    (hx : tact p cfg T t a x = some (x', o)) :
    (x'.s.queue ≠ [] ∧ x'.item ≤ u) ∨ (x'.s.queue = [] ∧ (Over x'.s.w ∨ Coming p v x' u)) := by
  have htu := h.by hl hs hq hb hp
  obtain ⟨hnow, _, s', hact, rfl⟩ := tact_some hx
  have hroom : ¬ cfg.bufferSize ≤ x.s.queue.length := by rw [hq]; simp; omega
  have er : (stamp cfg t a x s').room = x.room := by simp [stamp, hroom]
  have ew : (stamp cfg t a x s').wSince = t := by simp [stamp, ha]
  have ei : s'.queue ≠ [] → (stamp cfg t a x s').item = t := by
    intro hne
    simp only [stamp, hq, List.isEmpty_nil, Bool.true_and, Bool.not_eq_true', List.isEmpty_eq_false_iff]
    rw [if_pos hne]
  show (s'.queue ≠ [] ∧ _) ∨ (s'.queue = [] ∧ (Over s'.w ∨ _))
  have key : s'.queue ≠ [] → (s'.queue ≠ [] ∧ (stamp cfg t a x s').item ≤ u) := fun hne => ⟨hne, by rw [ei hne]; exact htu⟩
  cases hw : x.s.w with
  | loop =>
    cases a <;> simp [Action.isWorker] at ha <;> simp [act, hw, hstop] at hact
    obtain ⟨rfl, rfl⟩ := hact
    right
    refine ⟨hq, .inr ?_⟩
    unfold Coming at h ⊢
    rw [hw] at h
    obtain ⟨m, h1, h2⟩ := h
    have := hp _ (by unfold workerBy; rw [hw])
    exact ⟨m, h1, by rw [ew]; linarith⟩
  | fetch =>
    cases a <;> simp [Action.isWorker] at ha <;> simp [act, hw] at hact
    have hpt := hp _ (by unfold workerBy; rw [hw])
    unfold Coming at h
    rw [hw] at h
    obtain ⟨m, h1, h2⟩ := h
    have h0 : 0 ≤ (m : ℚ) * (v.load + v.step) := mul_nonneg (Nat.cast_nonneg m) (add_nonneg hl hs)
    right
    unfold fetchStep at hact
    have er' : x.room + v.step ≤ u := by linarith
    split at hact
    · simp only [Prod.mk.injEq] at hact
      obtain ⟨rfl, rfl⟩ := hact
      refine ⟨hq, .inr ?_⟩
      unfold Coming
      refine ⟨by rw [ew]; linarith, by rw [er]; linarith⟩
    · simp only [Prod.mk.injEq] at hact
      obtain ⟨rfl, rfl⟩ := hact
      refine ⟨hq, .inr ?_⟩
      unfold Coming
      refine ⟨by rw [ew]; linarith, by rw [er]; linarith⟩
    · rename_i s1 hg
      split at hact
      · rename_i L hL
        simp only [Prod.mk.injEq] at hact
        obtain ⟨rfl, rfl⟩ := hact
        refine ⟨hq, .inr ?_⟩
        unfold Coming
        cases m with
        | zero => exact absurd (by rw [hg]) (h1 (by rw [hL]; rfl))
        | succ m =>
          refine ⟨m, h1 s1 (by rw [hL]; rfl) hg, ?_⟩
          rw [ew]
          push_cast at h2
          nlinarith
      · simp only [Prod.mk.injEq] at hact
        obtain ⟨rfl, rfl⟩ := hact
        exact ⟨hq, .inl (.inr (.inr ⟨_, rfl⟩))⟩
    · simp only [Prod.mk.injEq] at hact
      obtain ⟨rfl, rfl⟩ := hact
      exact ⟨hq, .inl (.inr (.inr ⟨_, rfl⟩))⟩
  | put b =>
    cases a <;> simp [Action.isWorker] at ha <;> simp [act, hw] at hact
    obtain ⟨_, rfl, rfl⟩ := hact
    exact .inl (key (by simp))
  | eos =>
    cases a <;> simp [Action.isWorker] at ha <;> simp [act, hw] at hact
    · obtain ⟨_, rfl, rfl⟩ := hact
      exact .inl (key (by simp))
    · exact absurd hact.1 hroom
  | eosForce =>
    cases a <;> simp [Action.isWorker] at ha <;> simp [act, hw] at hact
    obtain ⟨rfl, rfl⟩ := hact
    exact .inl (key (by simp))
  | _ => unfold Coming at h; rw [hw] at h; exact h.elim

theorem worker_same {s s' : St S B} {a : Action} {o : Out B} (ha : a.isWorker = true) (h : act p cfg a s = some (s', o)) :
    s'.c = s.c ∧ s'.started = s.started ∧ s'.startup = s.startup ∧ s'.t = s.t ∧ (s.queue ≠ [] → s'.queue ≠ []) := by
  cases a with
  | fetch =>
    cases hw : s.w <;> simp only [act, hw] at h <;> try contradiction
    simp only [Option.some.injEq] at h
    rcases fetchStep_cases (p := p) s with ⟨b, src, he⟩ | ⟨w, src, he, _⟩ <;> rw [he] at h <;> simp at h <;>
      obtain ⟨rfl, rfl⟩ := h <;> exact ⟨rfl, rfl, rfl, rfl, id⟩
  | _ =>
    simp only [Action.isWorker] at ha; try contradiction
    all_goals simp only [act] at h
    all_goals repeat' split at h
    all_goals try contradiction
    all_goals
      simp at h
      obtain ⟨rfl, rfl⟩ := h
      simp

/-- What is known of the state while only `get_batch` and `next_episode` are called and the worker keeps its times. -/
structure Live (p : Src S B) (cfg : Cfg) (v : Speed) (n : Nat) (src0 : S) (x : TSt S B) : Prop where
  ws : x.wSince ≤ x.now
  rm : x.room ≤ x.now
  it : x.item ≤ x.now
  cs : x.cSince ≤ x.now
  acc : ∃ hist, Acc p cfg src0 True (leftQueue hist) x.s
  stop : x.s.stop = true → x.s.w = .exited
  started : Waiting x.s.c → x.s.started = true
  empty : Waiting x.s.c → x.s.queue = [] → Over x.s.w ∨ Coming p v x (x.cSince + delay v n)
  nonempty : Waiting x.s.c → x.s.queue ≠ [] → x.item ≤ x.cSince + delay v n

theorem delay_nonneg {v : Speed} (hl : 0 ≤ v.load) (hs : 0 ≤ v.step) (n : Nat) : 0 ≤ delay v n := by
  unfold delay
  have hn0 : (0 : ℚ) ≤ n := Nat.cast_nonneg n
  positivity

theorem Live.init {v : Speed} {n : Nat} {src0 : S} (t : ℚ) : Live p cfg v n src0 (tinit t src0) where
  ws := le_refl _
  rm := le_refl _
  it := le_refl _
  cs := le_refl _
  acc := ⟨[], [], src0, 0, ⟨.nil _ _, Nat.zero_le _⟩, rfl, rfl, rfl, rfl, rfl, rfl⟩
  stop := by simp [tinit, Prefetch.init]
  started := by simp [tinit, Prefetch.init, Waiting]
  empty := by simp [tinit, Prefetch.init, Waiting]
  nonempty := by simp [tinit, Prefetch.init, Waiting]

theorem stop_step {s s' : St S B} {a : Action} {o : Out B} (hs : Session a) (h : act p cfg a s = some (s', o)) (hi : s.stop = true → s.w = .exited)
    (hst : s.started = false → s.w = .idle) : s'.stop = true → s'.w = .exited := by
  cases a with
  | fetch =>
    cases hw : s.w <;> simp only [act, hw] at h <;> try contradiction
    simp only [Option.some.injEq] at h
    have hf : s.stop = false := by
      by_contra hc
      have := hi (by simpa using hc)
      rw [hw] at this; cases this
    rcases fetchStep_cases (p := p) s with ⟨b, src, he⟩ | ⟨w, src, he, _⟩ <;> rw [he] at h <;> simp at h <;>
      obtain ⟨rfl, rfl⟩ := h <;> simp [hf]
  | get k =>
    simp only [act] at h
    repeat' split at h
    all_goals simp at h
    all_goals obtain ⟨rfl, rfl⟩ := h
    all_goals first | exact hi | skip
    all_goals
      intro hc
      have h1 := hi (by simpa [startWorker_stop] using hc)
      have h2 : s.started = true := by
        by_contra h3
        have := hst (by simpa using h3)
        rw [h1] at this; cases this
      simp [startWorker, h2, h1]
  | nextEpisode =>
    simp only [act] at h
    repeat' split at h
    all_goals simp at h
    all_goals obtain ⟨rfl, rfl⟩ := h
    all_goals first | exact hi | skip
    all_goals
      intro hc
      have h1 := hi (by simpa [startWorker_stop] using hc)
      have h2 : s.started = true := by
        by_contra h3
        have := hst (by simpa using h3)
        rw [h1] at this; cases this
      simp [startWorker, h2, h1]
  | _ =>
    all_goals try exact hs.elim
    all_goals simp only [act] at h
    all_goals repeat' split at h
    all_goals try contradiction
    all_goals
      simp at h
      obtain ⟨rfl, rfl⟩ := h
      simp_all

theorem acc_started {src0 : S} {lossy : Prop} {out : List (Option B)} {s : St S B} (h : Acc p cfg src0 lossy out s) : s.started = false → s.w = .idle := by
  obtain ⟨bs, src, k, _, h⟩ := h
  intro hs
  cases hw : s.w <;> rw [hw] at h <;> simp_all

theorem acc_idle {src0 : S} {lossy : Prop} {out : List (Option B)} {s : St S B} (h : Acc p cfg src0 lossy out s) (hs : s.started = true) : s.w ≠ .idle := by
  obtain ⟨bs, src, k, _, h⟩ := h
  intro hw
  rw [hw] at h
  simp_all

theorem acc_src {src0 : S} {lossy : Prop} {out : List (Option B)} {s : St S B} (h : Acc p cfg src0 lossy out s) (hw : s.w = .loop ∨ s.w = .fetch) :
    ∃ bs k, Produces p src0 0 bs s.src k := by
  obtain ⟨bs, src, k, hp, h⟩ := h
  rcases hw with hw | hw <;> rw [hw] at h <;> obtain ⟨rfl, _⟩ := h <;> exact ⟨bs, k, hp.1⟩

theorem Live.step {v : Speed} (hl : 0 ≤ v.load) (hs : 0 ≤ v.step) {n : Nat} {src0 : S} (hb : 0 < cfg.bufferSize)
    (hn : ∀ bs s k, Produces p src0 0 bs s k → EndsInARow p n s) {x x' : TSt S B} {t : ℚ} {a : Action} {o : Out B} (h : Live p cfg v n src0 x)
    (hp : WorkerPrompt cfg T v x t) (hses : Session a) (hx : tact p cfg T t a x = some (x', o)) : Live p cfg v n src0 x' := by
  have hx0 := hx
  obtain ⟨hnow, _, s', hact, rfl⟩ := tact_some hx
  obtain ⟨hist, hacc⟩ := h.acc
  have hacc' := hacc.step hses (fun _ => trivial) hact
  have hd := delay_nonneg hl hs n
  have base : (stamp cfg t a x s').wSince ≤ t ∧ (stamp cfg t a x s').room ≤ t ∧ (stamp cfg t a x s').item ≤ t ∧ (stamp cfg t a x s').cSince ≤ t := by
    have h1 := h.ws; have h2 := h.rm; have h3 := h.it; have h4 := h.cs
    simp only [stamp]
    refine ⟨?_, ?_, ?_, ?_⟩ <;> split <;> linarith
  have hst := stop_step hses hact h.stop (acc_started hacc)
  by_cases ha : a.isWorker = true
  · obtain ⟨e1, e2, _, _, e5⟩ := worker_same ha hact
    have ec : (stamp cfg t a x s').cSince = x.cSince := by simp [stamp, ha]
    refine ⟨base.1, base.2.1, base.2.2.1, base.2.2.2, ⟨_, hacc'⟩, hst, ?_, ?_, ?_⟩
    · intro hw
      show s'.started = true
      rw [e2]
      exact h.started (by rw [← e1]; exact hw)
    all_goals
      intro hw hq
      have hw0 : Waiting x.s.c := by rw [← e1]; exact hw
      rw [ec]
    · have hq0 : x.s.queue = [] := by
        by_contra hc
        exact e5 hc hq
      rcases h.empty hw0 hq0 with ho | hc
      · left
        show Over s'.w
        rcases ho with ho | ho | ⟨e, ho⟩ <;> cases a <;> simp [Action.isWorker] at ha <;> simp [act, ho] at hact
        obtain ⟨rfl, rfl⟩ := hact
        exact .inr (.inl rfl)
      · have hstop : x.s.stop = false := by
          by_contra hc'
          have := h.stop (by simpa using hc')
          unfold Coming at hc
          rw [this] at hc
          exact hc
        rcases hc.step hl hs hq0 hb h.rm hstop hp ha hx0 with ⟨h1, _⟩ | ⟨_, h2⟩
        · exact absurd hq h1
        · exact h2
    · by_cases hq0 : x.s.queue = []
      · rcases h.empty hw0 hq0 with ho | hc
        · exfalso
          rcases ho with ho | ho | ⟨e, ho⟩ <;> cases a <;> simp [Action.isWorker] at ha <;> simp [act, ho] at hact
          obtain ⟨rfl, rfl⟩ := hact
          exact hq hq0
        · have hstop : x.s.stop = false := by
            by_contra hc'
            have := h.stop (by simpa using hc')
            unfold Coming at hc
            rw [this] at hc
            exact hc
          rcases hc.step hl hs hq0 hb h.rm hstop hp ha hx0 with ⟨_, h2⟩ | ⟨h1, _⟩
          · exact h2
          · exact absurd h1 hq
      · have : (stamp cfg t a x s').item = x.item := by simp [stamp, hq0]
        rw [this]
        exact h.nonempty hw0 hq0
  · have ec : (stamp cfg t a x s').cSince = t := by simp [stamp, ha]
    have hstarted : Waiting s'.c → s'.started = true := by
      have hw0 := h.started
      cases a <;> simp [Action.isWorker] at ha <;> try exact hses.elim
      all_goals simp only [act] at hact
      all_goals repeat' split at hact
      all_goals try contradiction
      all_goals simp at hact
      all_goals obtain ⟨rfl, rfl⟩ := hact
      all_goals simp_all [Waiting, startWorker_c, startWorker_started]
    refine ⟨base.1, base.2.1, base.2.2.1, base.2.2.2, ⟨_, hacc'⟩, hst, hstarted, ?_, ?_⟩
    · intro hw _
      rw [ec]
      refine fresh hl hs base.1 base.2.1 (acc_idle hacc' (hstarted hw)) ?_
      intro hlf
      obtain ⟨bs, k, hpr⟩ := acc_src hacc' hlf
      exact hn bs _ k hpr
    · intro _ _
      rw [ec]
      linarith [base.2.2.1]

theorem Runs.live {v : Speed} (hl : 0 ≤ v.load) (hs : 0 ≤ v.step) {n : Nat} {src0 : S} (hb : 0 < cfg.bufferSize)
    (hn : ∀ bs s k, Produces p src0 0 bs s k → EndsInARow p n s) {x' : TSt S B} {t0 : ℚ} {as : List (ℚ × Action)} {os : List (Out B)}
    (hses : ∀ q ∈ as, Session q.2) (h : Runs p cfg T (WorkerPrompt cfg T v) (tinit t0 src0) as os x') : Live p cfg v n src0 x' :=
  h.invariant (Live p cfg v n src0) Session (fun _ _ _ _ _ hi hok hg hx => hi.step hl hs hb hn hok hg hx) hses (Live.init t0)

/-- If `get_batch` gives up although the worker keeps its times, nothing will come any more. -/
theorem Live.timeout {v : Speed} (hl : 0 ≤ v.load) (hs : 0 ≤ v.step) {n : Nat} {src0 : S} (hb : 0 < cfg.bufferSize)
    {x x' : TSt S B} {t : ℚ} {a : Action} (h : Live p cfg v n src0 x) (h1 : delay v n < getTimeout T x.s)
    (hp : WorkerPrompt cfg T v x t) (hx : tact p cfg T t a x = some (x', .stop true)) : x.s.queue = [] ∧ Over x.s.w ∧ x'.s = { x.s with c := .idle } := by
  obtain ⟨hnow, hdue, s', hact, rfl⟩ := tact_some hx
  have ha : a = .timeout := by
    cases a with
    | timeout => rfl
    | fetch =>
      cases hw : x.s.w <;> simp only [act, hw] at hact <;> try contradiction
      simp only [Option.some.injEq] at hact
      rcases fetchStep_cases (p := p) x.s with ⟨b, src, he⟩ | ⟨w, src, he, hw'⟩ <;> rw [he] at hact <;> simp at hact
    | _ =>
      simp only [act] at hact
      repeat' split at hact
      all_goals simp at hact
  subst ha
  simp only [act] at hact
  split at hact
  · rename_i hc hq
    simp only [Option.some.injEq, Prod.mk.injEq, and_true] at hact
    subst hact
    refine ⟨hq, ?_, rfl⟩
    rcases h.empty (.inl hc) hq with ho | hco
    · exact ho
    · exfalso
      have htu := hco.by hl hs hq hb hp
      have hdue : x.cSince + getTimeout T x.s ≤ t := of_decide_eq_true hdue
      linarith
  · cases hact

/-- When nothing will come any more and the queue is empty, it stays so, and `get_batch` returns nothing. -/
theorem over_step {s s' : St S B} {a : Action} {o : Out B} (hses : Session a) (hq : s.queue = []) (hw : Over s.w) (hst : s.started = true)
    (h : act p cfg a s = some (s', o)) : (s'.queue = [] ∧ Over s'.w ∧ s'.started = true) ∧ stamped [o] = [] ∧ returned [o] = [] ∧ leftQueue [o] = [] := by
  have hsw : startWorker s = s := by simp [startWorker, hst]
  have hw' := hw
  rcases hw with hw | hw | ⟨e, hw⟩ <;> cases a <;> try exact hses.elim
  all_goals simp only [act, hw, hq, hsw] at h
  all_goals repeat' split at h
  all_goals try contradiction
  all_goals simp at h
  all_goals obtain ⟨rfl, rfl⟩ := h
  all_goals refine ⟨⟨?_, ?_, ?_⟩, rfl, rfl, rfl⟩
  all_goals first | exact hq | exact hst | exact hw' | rfl | exact Or.inl rfl | exact Or.inr (Or.inl rfl) | exact Or.inr (Or.inr ⟨_, rfl⟩)

theorem stamped_append (xs ys : List (Out B)) : stamped (xs ++ ys) = stamped xs ++ stamped ys := by
  simp [stamped]

theorem over_run {as : List Action} {s s' : St S B} {os : List (Out B)} (hses : ∀ a ∈ as, Session a) (hq : s.queue = []) (hw : Over s.w) (hst : s.started = true)
    (h : Prefetch.run p cfg as s = some (s', os)) : stamped os = [] ∧ returned os = [] ∧ leftQueue os = [] := by
  induction as generalizing s os with
  | nil => simp [Prefetch.run] at h; obtain ⟨_, rfl⟩ := h; exact ⟨rfl, rfl, rfl⟩
  | cons a as ih =>
    rw [Prefetch.run] at h
    split at h
    · cases h
    · rename_i s1 o ho
      split at h
      · cases h
      · rename_i s2 os2 h2
        simp only [Option.some.injEq, Prod.mk.injEq] at h
        obtain ⟨rfl, rfl⟩ := h
        obtain ⟨⟨e1, e2, e3⟩, k1, k2, k3⟩ := over_step (hses a List.mem_cons_self) hq hw hst ho
        obtain ⟨j1, j2, j3⟩ := ih (fun b hb => hses b (List.mem_cons_of_mem _ hb)) e1 e2 e3 h2
        have : ∀ l : List (Out B), o :: l = [o] ++ l := fun _ => rfl
        rw [this, stamped_append, returned_append, leftQueue_append, k1, k2, k3, j1, j2, j3]
        exact ⟨rfl, rfl, rfl⟩

/-- The batches that were returned are what left the queue, if nothing was thrown away. -/
theorem returned_leftQueue {os : List (Out B)} (h : ∀ o ∈ os, ∀ x, o ≠ .removed x) : returned os = (leftQueue os).filterMap id := by
  induction os with
  | nil => rfl
  | cons o os ih =>
    have ih := ih (fun o' ho' => h o' (List.mem_cons_of_mem _ ho'))
    have h1 := h o List.mem_cons_self
    have e : ∀ l : List (Out B), o :: l = [o] ++ l := fun _ => rfl
    rw [e, returned_append, leftQueue_append, List.filterMap_append, ih]
    congr 1
    cases o with
    | removed x => exact absurd rfl (h1 x)
    | stop b => cases b <;> rfl
    | _ => rfl

/-! ## The end-of-stream signal -/

/-- While the worker waits to put the end-of-stream signal into the full queue, nothing is taken from it. -/
structure Full (cfg : Cfg) (x : TSt S B) : Prop where
  len : x.s.queue.length ≤ cfg.bufferSize
  sv : x.served ≤ x.now
  st : x.s.started = false → x.s.w = .idle
  eos : x.s.w = .eos → cfg.bufferSize ≤ x.s.queue.length → x.served ≤ x.wSince

theorem Full.init {src0 : S} (t : ℚ) : Full cfg (tinit (B := B) t src0) := ⟨by simp [tinit, Prefetch.init], le_refl _, fun _ => rfl, by simp [tinit, Prefetch.init]⟩

theorem Full.step (hb : 0 < cfg.bufferSize) {x x' : TSt S B} {t : ℚ} {a : Action} {o : Out B} (h : Full cfg x) (hses : Session a)
    (hx : tact p cfg T t a x = some (x', o)) : Full cfg x' := by
  obtain ⟨hnow, _, s', hact, rfl⟩ := tact_some hx
  have hsv : (stamp cfg t a x s').served ≤ t := by
    simp only [stamp]
    have := h.sv
    split <;> linarith
  by_cases ha : a.isWorker = true
  · obtain ⟨e1, e2, _, _, _⟩ := worker_same ha hact
    refine ⟨?_, hsv, ?_, ?_⟩
    · show s'.queue.length ≤ _
      have hlen := h.len
      cases a with
      | fetch =>
        cases hw : x.s.w <;> simp only [act, hw] at hact <;> try contradiction
        simp only [Option.some.injEq] at hact
        rcases fetchStep_cases (p := p) x.s with ⟨b, src, he⟩ | ⟨w, src, he, hw'⟩ <;> rw [he] at hact <;> simp at hact <;> obtain ⟨rfl, rfl⟩ := hact <;> exact hlen
      | _ =>
        simp [Action.isWorker] at ha
        all_goals simp only [act] at hact
        all_goals repeat' split at hact
        all_goals try contradiction
        all_goals simp at hact
        all_goals obtain ⟨rfl, rfl⟩ := hact
        all_goals simp
        all_goals omega
    · intro hs
      show s'.w = .idle
      have hw := h.st (by rw [← e2]; exact hs)
      cases a <;> simp [Action.isWorker] at ha <;> simp [act, hw] at hact
    · intro _ _
      have ew : (stamp cfg t a x s').wSince = t := by simp [stamp, ha]
      rw [ew]; exact hsv
  · have hlen : s'.queue.length ≤ x.s.queue.length := by
      cases a <;> simp [Action.isWorker] at ha <;> try exact hses.elim
      all_goals simp only [act] at hact
      all_goals repeat' split at hact
      all_goals try contradiction
      all_goals simp at hact
      all_goals obtain ⟨rfl, rfl⟩ := hact
      all_goals simp [startWorker_queue]
      all_goals simp_all
    have hw : s'.w = x.s.w ∨ (x.s.started = false ∧ s'.w = .loop) := by
      cases a <;> simp [Action.isWorker] at ha <;> try exact hses.elim
      all_goals simp only [act] at hact
      all_goals repeat' split at hact
      all_goals try contradiction
      all_goals simp at hact
      all_goals obtain ⟨rfl, rfl⟩ := hact
      all_goals first | exact .inl rfl | skip
      all_goals unfold startWorker
      all_goals split <;> simp_all
    have hs : s'.started = false → x.s.started = false := by
      cases a <;> simp [Action.isWorker] at ha <;> try exact hses.elim
      all_goals simp only [act] at hact
      all_goals repeat' split at hact
      all_goals try contradiction
      all_goals simp at hact
      all_goals obtain ⟨rfl, rfl⟩ := hact
      all_goals simp [startWorker_started]
    refine ⟨le_trans hlen h.len, hsv, ?_, ?_⟩
    · intro hs'
      show s'.w = .idle
      rcases hw with e | ⟨_, e⟩
      · rw [e]; exact h.st (hs hs')
      · have h0 := hs hs'
        have hs'2 : s'.started = false := hs'
        exfalso
        cases a <;> simp [Action.isWorker] at ha <;> try exact hses.elim
        all_goals simp only [act] at hact
        all_goals repeat' split at hact
        all_goals try contradiction
        all_goals simp at hact
        all_goals obtain ⟨rfl, rfl⟩ := hact
        all_goals simp_all [startWorker_started, h.st h0]
    · intro he hl
      have he : s'.w = .eos := he
      have hl : cfg.bufferSize ≤ s'.queue.length := hl
      rcases hw with e | ⟨_, e⟩
      · have hxe : x.s.w = .eos := by rw [← e]; exact he
        have hold := h.eos hxe (le_trans hl hlen)
        have hst : x.s.started = true := by
          by_contra hc
          have := h.st (by simpa using hc)
          rw [hxe] at this; cases this
        have hnt : a ≠ .take ∧ a ≠ .discard := by
          have hll := h.len
          constructor <;> rintro rfl
          all_goals simp only [act] at hact
          all_goals repeat' split at hact
          all_goals try contradiction
          all_goals simp at hact
          all_goals obtain ⟨rfl, rfl⟩ := hact
          all_goals simp_all
          all_goals omega
        have e1 : (stamp cfg t a x s').served = x.served := by simp [stamp, hnt.1, hnt.2, hst]
        have e2 : (stamp cfg t a x s').wSince = x.wSince := by simp [stamp, ha, hxe, WPc.ended]
        rw [e1, e2]; exact hold
      · rw [e] at he; cases he

/-- The end-of-stream signal is never forced into the queue if the user asks soon enough. -/
theorem Full.noTimeout {g : ℚ} (hg : g < T.eos) {x x' : TSt S B} {t : ℚ} {o : Out B} (h : Full cfg x) (hask : Asks g x t) :
    tact p cfg T t .eosTimeout x ≠ some (x', o) := by
  intro hx
  obtain ⟨hnow, hdue, s', hact, rfl⟩ := tact_some hx
  cases hw : x.s.w <;> simp [act, hw] at hact
  have h1 := h.eos hw hact.1
  have h2 := hask (by rw [hw]; rfl)
  simp [due] at hdue
  linarith

theorem Runs.noEosTimeout (hb : 0 < cfg.bufferSize) {g : ℚ} (hg : g < T.eos) {ok : TSt S B → ℚ → Prop} (hok : ∀ x t, ok x t → Asks g x t) {src0 : S} {x' : TSt S B} {t0 : ℚ}
    {as : List (ℚ × Action)} {os : List (Out B)} (hses : ∀ q ∈ as, Session q.2) (h : Runs p cfg T ok (tinit t0 src0) as os x') :
    ∀ q ∈ as, q.2 ≠ .eosTimeout := by
  rintro ⟨t, a⟩ hq rfl
  obtain ⟨as1, as2, rfl⟩ := List.append_of_mem hq
  obtain ⟨os1, o, os2, y, y', _, h1, h2, h3, _⟩ := h.splitAt rfl
  have hf : Full cfg y := h1.invariant (Full cfg) Session (fun _ _ _ _ _ hi _ hg hx => hi.step hb hg hx)
    (fun q hq => hses q (by simp [hq])) (Full.init t0)
  exact hf.noTimeout hg (hok _ _ h2) h3

end Verif.Timed
