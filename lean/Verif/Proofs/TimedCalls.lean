import Verif.Proofs.Timed
/-!
# Lemmas on the prefetching scheduler with time: discarding the rest of an episode, and how long calls take
-/

namespace Verif.Timed
open Verif Verif.Prefetch
variable {S B : Type} {p : Src S B} {cfg : Cfg} {T : Times}

/-! ## Discarding -/

/-- `next_episode` does not lag behind. -/
def Disc (v : Speed) (n L : Nat) (x : TSt S B) : Prop :=
  ∀ k, x.s.c = .discard k → 0 < k ∧ k ≤ L ∧ x.cSince ≤ x.call + ((L : ℚ) - k) * (delay v n + v.step)

theorem Disc.step {v : Speed} {n L : Nat} {src0 : S} (hL : p.episodeLength = some L)
    (hl : 0 ≤ v.load) (hs : 0 ≤ v.step) {x x' : TSt S B} {t : ℚ} {a : Action} {o : Out B} (h : Disc v n L x) (hlive : Live p cfg v n src0 x)
    (hp : ConsumerPrompt T v x t) (hses : Session a) (hx : tact p cfg T t a x = some (x', o)) : Disc v n L x' := by
  obtain ⟨hnow, _, s', hact, rfl⟩ := tact_some hx
  have hd := delay_nonneg hl hs n
  intro k hk
  have hk : s'.c = .discard k := hk
  by_cases ha : a.isWorker = true
  · obtain ⟨e1, _⟩ := worker_same ha hact
    have := h k (by rw [← e1]; exact hk)
    simpa [stamp, ha] using this
  · have ec : (stamp cfg t a x s').cSince = t := by simp [stamp, ha]
    cases a <;> simp [Action.isWorker] at ha <;> try exact hses.elim
    case nextEpisode =>
      simp only [act, hL] at hact
      repeat' split at hact
      all_goals simp at hact
      · rename_i hc hlt
        obtain ⟨rfl, rfl⟩ := hact
        obtain rfl : L - x.s.t = k := by injection hk
        have e2 : (stamp cfg t .nextEpisode x { x.s with c := .discard (L - x.s.t) }).call = t := by simp [stamp, hc, Action.isWorker]
        refine ⟨by omega, by omega, ?_⟩
        rw [ec, e2]
        have h0 : ((L - x.s.t : ℕ) : ℚ) ≤ L := by exact_mod_cast Nat.sub_le _ _
        nlinarith
      · rename_i hc hlt
        obtain ⟨rfl, rfl⟩ := hact
        have hk : (startWorker x.s).c = .discard k := hk
        rw [startWorker_c, hc] at hk
        cases hk
    case discard =>
      have hcs := hact
      simp only [act] at hcs
      split at hcs
      · rename_i k0 y q hc hq
        obtain ⟨h1, h2, h3⟩ := h k0 hc
        have hne : x.s.queue ≠ [] := by rw [hq]; simp
        have htt : t ≤ x.cSince + delay v n + v.step := by
          have := hp (max x.cSince x.item + v.step) (by simp [consumerBy, hc, hq])
          have hi := hlive.nonempty (.inr ⟨k0, hc⟩) hne
          rcases max_cases x.cSince x.item with ⟨e, _⟩ | ⟨e, _⟩ <;> rw [e] at this <;> linarith
        cases y with
        | none =>
          simp at hcs
          obtain ⟨rfl, rfl⟩ := hcs
          cases hk
        | some b =>
          by_cases hk1 : k0 ≤ 1
          · simp [hk1] at hcs
            obtain ⟨rfl, rfl⟩ := hcs
            cases hk
          · simp [hk1] at hcs
            obtain ⟨rfl, rfl⟩ := hcs
            obtain rfl : k0 - 1 = k := by injection hk
            have e2 : (stamp cfg t .discard x { x.s with queue := q, c := .discard (k0 - 1) }).call = x.call := by simp [stamp, hc]
            refine ⟨by omega, by omega, ?_⟩
            rw [ec, e2]
            rw [Nat.cast_sub (by omega : 1 ≤ k0)]
            push_cast
            nlinarith
      · cases hcs
    all_goals
      simp only [act] at hact
      repeat' split at hact
    all_goals try contradiction
    all_goals simp at hact
    all_goals obtain ⟨rfl, rfl⟩ := hact
    all_goals simp_all [startWorker_c]

theorem Runs.disc {v : Speed} {n L : Nat} {src0 : S} (hL : p.episodeLength = some L) (hl : 0 ≤ v.load) (hs : 0 ≤ v.step) (hb : 0 < cfg.bufferSize)
    (hn : ∀ bs s k, Produces p src0 0 bs s k → EndsInARow p n s) {ok : TSt S B → ℚ → Prop}
    (hok : ∀ x t, ok x t → WorkerPrompt cfg T v x t ∧ ConsumerPrompt T v x t) {x' : TSt S B} {t0 : ℚ} {as : List (ℚ × Action)} {os : List (Out B)}
    (hses : ∀ q ∈ as, Session q.2) (h : Runs p cfg T ok (tinit t0 src0) as os x') : Live p cfg v n src0 x' ∧ Disc v n L x' :=
  h.invariant (fun x => Live p cfg v n src0 x ∧ Disc v n L x) Session
    (fun _ _ _ _ _ hi hk hg hx => ⟨hi.1.step hl hs hb hn (hok _ _ hk).1 hg hx, hi.2.step hL hl hs hi.1 (hok _ _ hk).2 hg hx⟩) hses
    ⟨Live.init t0, by intro k hk; simp [tinit, Prefetch.init] at hk⟩

/-- If `next_episode` gives up, nothing will come any more. -/
theorem Disc.timeout {v : Speed} {n L : Nat} {src0 : S} (hl : 0 ≤ v.load) (hs : 0 ≤ v.step) (hb : 0 < cfg.bufferSize)
    (hj : L * (delay v n + v.step) < T.join) {x x' : TSt S B} {t : ℚ} {o : Out B} (h : Disc v n L x) (hlive : Live p cfg v n src0 x)
    (hw : WorkerPrompt cfg T v x t) (hc : ConsumerPrompt T v x t) (hx : tact p cfg T t .discardTimeout x = some (x', o)) :
    x.s.queue = [] ∧ Over x.s.w ∧ x.s.started = true ∧ o = .tau ∧ x'.s = { x.s with t := 0, c := .idle } := by
  obtain ⟨hnow, hdue, s', hact, rfl⟩ := tact_some hx
  have hd := delay_nonneg hl hs n
  simp only [act] at hact
  split at hact
  · rename_i k hck
    simp only [Option.some.injEq, Prod.mk.injEq] at hact
    obtain ⟨rfl, rfl⟩ := hact
    obtain ⟨h1, h2, h3⟩ := h k hck
    have hdue : x.call + T.join ≤ t := of_decide_eq_true hdue
    have hkk : (1 : ℚ) ≤ k := by exact_mod_cast h1
    have hbound : x.cSince + (delay v n + v.step) ≤ x.call + L * (delay v n + v.step) := by nlinarith
    by_cases hq : x.s.queue = []
    · refine ⟨hq, ?_, hlive.started (.inr ⟨k, hck⟩), rfl, rfl⟩
      rcases hlive.empty (.inr ⟨k, hck⟩) hq with ho | hco
      · exact ho
      · have := hco.by hl hs hq hb hw
        linarith
    · exfalso
      have := hc (max x.cSince x.item + v.step) (by simp [consumerBy, hck, hq])
      have hi := hlive.nonempty (.inr ⟨k, hck⟩) hq
      rcases max_cases x.cSince x.item with ⟨e, _⟩ | ⟨e, _⟩ <;> rw [e] at this <;> linarith
  · cases hact

/-! ## How long a call takes -/

/-- While `reset` waits for it, the worker ends by `u`. -/
def Ends (v : Speed) (x : TSt S B) (u : ℚ) : Prop :=
  match x.s.w with
  | .idle | .exited | .died _ => x.wSince ≤ u
  | .loop | .eosStop => x.wSince + v.step ≤ u
  | .eosForce => x.wSince + 2 * v.step ≤ u
  | .put _ | .eos => x.wSince + 2 * v.step ≤ u ∧ x.room + 2 * v.step ≤ u
  | .fetch => x.wSince + v.load + 2 * v.step ≤ u ∧ x.room + 2 * v.step ≤ u

/-- What is known of the moments while a call is under way. -/
structure Timely (cfg : Cfg) (T : Times) (v : Speed) (x : TSt S B) : Prop where
  ws : x.wSince ≤ x.now
  rm : x.room ≤ x.now
  it : x.item ≤ x.now
  cs : x.cSince ≤ x.now
  bd : Bounded cfg x.s
  getc : x.s.c = .getWait → x.cSince = x.call
  geti : x.s.c = .getWait → x.s.queue ≠ [] → x.item ≤ x.cSince + getTimeout T x.s + v.step
  disc : ∀ k, x.s.c = .discard k → x.cSince ≤ x.call + T.join + 2 * v.step
  disi : ∀ k, x.s.c = .discard k → x.s.queue ≠ [] → x.item ≤ max x.cSince (x.call + T.join) + v.step
  rdr : x.s.c = .resetDrain → x.cSince = x.call
  rjn : x.s.c = .resetJoin → x.cSince ≤ x.call + v.step
  rwk : x.s.c = .resetJoin → Ends v x (x.cSince + v.load + 2 * v.step)
  rrm : x.s.c = .resetJoin → x.s.w = .eos → x.s.queue.length < cfg.bufferSize
  sdr : x.s.c = .shutDrain → x.cSince = x.call
  spt : x.s.c = .shutPut → x.cSince ≤ x.call + v.step
  sjn : x.s.c = .shutJoin → x.cSince ≤ x.call + 2 * v.step

theorem Timely.init {v : Speed} {src0 : S} (t : ℚ) : Timely (B := B) cfg T v (tinit t src0) := by
  constructor <;> first | exact le_refl _ | (constructor <;> simp [tinit, Prefetch.init]) | simp [tinit, Prefetch.init]

/-- A step of the worker while `reset` waits for it. -/
theorem Ends.step {v : Speed} (hl : 0 ≤ v.load) (hs : 0 ≤ v.step) {x x' : TSt S B} {u t : ℚ} {a : Action} {o : Out B} (h : Ends v x u) (hr : x.room ≤ x.now)
    (hstop : x.s.stop = true) (hroom : x.s.w.mayPut = true ∨ x.s.w = .eos → x.s.queue.length < cfg.bufferSize) (hp : WorkerPrompt cfg T v x t) (ha : a.isWorker = true)
    (hx : tact p cfg T t a x = some (x', o)) : Ends v x' u ∧ (x'.s.w = .eos → x'.s.queue.length < cfg.bufferSize) := by
  obtain ⟨hnow, _, s', hact, rfl⟩ := tact_some hx
  have ew : (stamp cfg t a x s').wSince = t := by simp [stamp, ha]
  unfold Ends at h ⊢
  unfold WorkerPrompt workerBy at hp
  cases hw : x.s.w with
  | loop =>
    rw [hw] at h hp
    have h : x.wSince + v.step ≤ u := h
    have hpt := hp _ rfl
    cases a <;> simp [Action.isWorker] at ha <;> simp [act, hw, hstop] at hact
    obtain ⟨rfl, rfl⟩ := hact
    rw [ew]
    refine ⟨?_, fun hc => by cases hc⟩
    show t ≤ u
    linarith
  | fetch =>
    rw [hw] at h hp
    have hpt := hp _ rfl
    have hrm := hroom (.inl (by rw [hw]; rfl))
    have er : ∀ s1 : St S B, (stamp cfg t a x s1).room = x.room := by intro s1; simp [stamp, Nat.not_le.mpr hrm]
    cases a <;> simp [Action.isWorker] at ha <;> simp [act, hw] at hact
    rcases fetchStep_cases (p := p) x.s with ⟨b, src, he⟩ | ⟨w, src, he, hw'⟩ <;> rw [he] at hact <;> simp at hact <;> obtain ⟨rfl, rfl⟩ := hact
    · rw [ew, er]
      refine ⟨⟨by linarith [h.1], by linarith [h.2]⟩, fun hc => ?_⟩
      cases hc
    · rw [ew, er]
      rcases hw' with rfl | rfl | ⟨e, rfl⟩
      · exact ⟨⟨by linarith [h.1], by linarith [h.2]⟩, fun _ => hrm⟩
      · refine ⟨?_, fun hc => by cases hc⟩
        show t + v.step ≤ u
        linarith [h.1]
      · refine ⟨?_, fun hc => by cases hc⟩
        show t ≤ u
        linarith [h.1]
  | put b =>
    rw [hw] at h hp
    have hrm := hroom (.inl (by rw [hw]; rfl))
    have hpt := hp _ (by simp [hrm]; rfl)
    have hm : max x.wSince x.room + 2 * v.step ≤ u := by rcases max_cases x.wSince x.room with ⟨e, _⟩ | ⟨e, _⟩ <;> rw [e] <;> [exact h.1; exact h.2]
    cases a <;> simp [Action.isWorker] at ha <;> simp [act, hw] at hact
    obtain ⟨_, rfl, rfl⟩ := hact
    rw [ew]
    refine ⟨?_, fun hc => by cases hc⟩
    show t + v.step ≤ u
    linarith
  | eos =>
    rw [hw] at h hp
    have hrm := hroom (.inr hw)
    have hpt := hp _ (by simp [hrm]; rfl)
    have hm : max x.wSince x.room + 2 * v.step ≤ u := by rcases max_cases x.wSince x.room with ⟨e, _⟩ | ⟨e, _⟩ <;> rw [e] <;> [exact h.1; exact h.2]
    cases a <;> simp [Action.isWorker] at ha <;> simp [act, hw] at hact
    · obtain ⟨_, rfl, rfl⟩ := hact
      rw [ew]
      refine ⟨?_, fun hc => by cases hc⟩
      show t + v.step ≤ u
      linarith
    · omega
  | eosForce =>
    rw [hw] at h hp
    have h : x.wSince + 2 * v.step ≤ u := h
    have hpt := hp _ rfl
    cases a <;> simp [Action.isWorker] at ha <;> simp [act, hw] at hact
    obtain ⟨rfl, rfl⟩ := hact
    rw [ew]
    refine ⟨?_, fun hc => by cases hc⟩
    show t + v.step ≤ u
    linarith
  | eosStop =>
    rw [hw] at h hp
    have h : x.wSince + v.step ≤ u := h
    have hpt := hp _ rfl
    cases a <;> simp [Action.isWorker] at ha <;> simp [act, hw] at hact
    obtain ⟨rfl, rfl⟩ := hact
    rw [ew]
    refine ⟨?_, fun hc => by cases hc⟩
    show t ≤ u
    linarith
  | _ => cases a <;> simp [Action.isWorker] at ha <;> simp [act, hw] at hact

theorem getTimeout_congr {s s' : St S B} (h : s'.startup = s.startup) : getTimeout T s' = getTimeout T s := by unfold getTimeout; rw [h]

/-- Where a step of the consumer leads. -/
theorem consumer_moves {s s' : St S B} {a : Action} {o : Out B} (ha : ¬ a.isWorker = true) (h : act p cfg a s = some (s', o)) :
    s'.c = .idle ∨ (s.c = .idle ∧ (s'.c = .getWait ∨ (∃ k, s'.c = .discard k) ∨ s'.c = .resetDrain ∨ s'.c = .shutDrain)) ∨
    (a = .discard ∧ s.queue ≠ [] ∧ ∃ k k', s.c = .discard k ∧ s'.c = .discard k') ∨
    (s.c = .resetDrain ∧ s'.c = .resetJoin ∧ s'.queue = s.queue.tail) ∨
    (s.c = .shutDrain ∧ s'.c = .shutPut) ∨ (s.c = .shutPut ∧ s'.c = .shutJoin) := by
  cases a <;> simp [Action.isWorker] at ha
  all_goals simp only [act] at h
  all_goals repeat' split at h
  all_goals try contradiction
  all_goals simp at h
  all_goals obtain ⟨rfl, rfl⟩ := h
  all_goals simp_all [startWorker_c, Prefetch.init]

theorem Timely.step {v : Speed} (hl : 0 ≤ v.load) (hs : 0 ≤ v.step) (hT1 : 0 ≤ T.startup) (hT2 : 0 ≤ T.steady) (hT3 : 0 ≤ T.join) (hb : 0 < cfg.bufferSize) {x x' : TSt S B} {t : ℚ} {a : Action} {o : Out B}
    (h : Timely cfg T v x) (hw : WorkerPrompt cfg T v x t) (hc : ConsumerPrompt T v x t) (hx : tact p cfg T t a x = some (x', o)) : Timely cfg T v x' := by
  have hx0 := hx
  obtain ⟨hnow, hdue, s', hact, rfl⟩ := tact_some hx
  have hbd := h.bd.step hb hact
  have base : (stamp cfg t a x s').wSince ≤ t ∧ (stamp cfg t a x s').room ≤ t ∧ (stamp cfg t a x s').item ≤ t ∧ (stamp cfg t a x s').cSince ≤ t := by
    have h1 := h.ws; have h2 := h.rm; have h3 := h.it; have h4 := h.cs
    simp only [stamp]
    refine ⟨?_, ?_, ?_, ?_⟩ <;> split <;> linarith
  by_cases ha : a.isWorker = true
  · obtain ⟨e1, _, e3, _, e5⟩ := worker_same ha hact
    have ec : (stamp cfg t a x s').cSince = x.cSince := by simp [stamp, ha]
    have el : (stamp cfg t a x s').call = x.call := by simp [stamp, ha]
    have ei : (stamp cfg t a x s').item ≤ x.item ∨ x.s.queue = [] := by
      by_cases hq : x.s.queue = []
      · exact .inr hq
      · left; simp [stamp, hq]
    have et : getTimeout T (stamp cfg t a x s').s = getTimeout T x.s := getTimeout_congr e3
    have eci : ∀ c, (stamp cfg t a x s').s.c = c → x.s.c = c := fun c hcc => by rw [← e1]; exact hcc
    refine ⟨base.1, base.2.1, base.2.2.1, base.2.2.2, hbd, ?_, ?_, ?_, ?_, ?_, ?_, ?_, ?_, ?_, ?_, ?_⟩
    · intro hk; rw [ec, el]; exact h.getc (eci _ hk)
    · intro hk _
      rw [ec, et]
      by_cases hq : x.s.queue = []
      · have := hc _ (by unfold consumerBy; rw [eci _ hk, hq]; rfl)
        linarith [base.2.2.1]
      · have := h.geti (eci _ hk) hq
        rcases ei with ei | ei
        · linarith
        · exact absurd ei hq
    · intro k hk; rw [ec, el]; exact h.disc k (eci _ hk)
    · intro k hk _
      rw [ec, el]
      by_cases hq : x.s.queue = []
      · have := hc _ (by unfold consumerBy; rw [eci _ hk, hq]; rfl)
        linarith [base.2.2.1]
      · have := h.disi k (eci _ hk) hq
        rcases ei with ei | ei
        · linarith
        · exact absurd ei hq
    · intro hk; rw [ec, el]; exact h.rdr (eci _ hk)
    · intro hk; rw [ec, el]; exact h.rjn (eci _ hk)
    · intro hk
      have hk := eci _ hk
      have hj := h.bd.join hk
      rw [ec]
      exact (Ends.step hl hs (h.rwk hk) h.rm hj.1 (fun hr => by rcases hr with hr | hr <;> [exact hj.2 hr; exact h.rrm hk hr]) hw ha hx0).1
    · intro hk
      have hk := eci _ hk
      have hj := h.bd.join hk
      exact (Ends.step hl hs (h.rwk hk) h.rm hj.1 (fun hr => by rcases hr with hr | hr <;> [exact hj.2 hr; exact h.rrm hk hr]) hw ha hx0).2
    · intro hk; rw [ec, el]; exact h.sdr (eci _ hk)
    · intro hk; rw [ec, el]; exact h.spt (eci _ hk)
    · intro hk; rw [ec, el]; exact h.sjn (eci _ hk)
  · have ec : (stamp cfg t a x s').cSince = t := by simp [stamp, ha]
    have el : (stamp cfg t a x s').call = if x.s.c = .idle then t else x.call := by
      by_cases hi : x.s.c = .idle <;> simp [stamp, ha, hi]
    have hgt : ∀ s : St S B, 0 ≤ getTimeout T s := by intro s; unfold getTimeout; split <;> assumption
    have hmv := consumer_moves ha hact
    have hm : ∀ c, (stamp cfg t a x s').s.c = c → s'.c = c := fun _ hk => hk
    refine ⟨base.1, base.2.1, base.2.2.1, base.2.2.2, hbd, ?_, ?_, ?_, ?_, ?_, ?_, ?_, ?_, ?_, ?_, ?_⟩
    · intro hk
      have hk := hm _ hk
      rw [ec, el]
      rcases hmv with e | ⟨e0, _⟩ | ⟨_, _, k, k', _, e⟩ | ⟨_, e, _⟩ | ⟨_, e⟩ | ⟨_, e⟩
      · rw [e] at hk; cases hk
      · rw [if_pos e0]
      all_goals rw [e] at hk; cases hk
    · intro _ _
      rw [ec]
      linarith [base.2.2.1, hgt (stamp cfg t a x s').s]
    · intro k hk
      have hk := hm _ hk
      rw [ec, el]
      rcases hmv with e | ⟨e0, _⟩ | ⟨rfl, hq, k1, k', e1, e⟩ | ⟨_, e, _⟩ | ⟨_, e⟩ | ⟨_, e⟩
      · rw [e] at hk; cases hk
      · rw [if_pos e0]; linarith
      · rw [if_neg (by rw [e1]; simp)]
        have hdue : x.cSince < x.call + T.join := of_decide_eq_true hdue
        have h1 := hc (max x.cSince x.item + v.step) (by simp [consumerBy, e1, hq])
        have h2 := h.disi k1 e1 hq
        have h3 : x.item ≤ x.call + T.join + v.step := by rwa [max_eq_right (le_of_lt hdue)] at h2
        rcases max_cases x.cSince x.item with ⟨e, _⟩ | ⟨e, _⟩ <;> rw [e] at h1 <;> linarith
      all_goals rw [e] at hk; cases hk
    · intro k hk _
      rw [ec]
      have := le_max_left t ((stamp cfg t a x s').call + T.join)
      linarith [base.2.2.1]
    · intro hk
      have hk := hm _ hk
      rw [ec, el]
      rcases hmv with e | ⟨e0, _⟩ | ⟨_, _, k, k', _, e⟩ | ⟨_, e, _⟩ | ⟨_, e⟩ | ⟨_, e⟩
      · rw [e] at hk; cases hk
      · rw [if_pos e0]
      all_goals rw [e] at hk; cases hk
    · intro hk
      have hk := hm _ hk
      rw [ec, el]
      rcases hmv with e | ⟨e0, e | ⟨k, e⟩ | e | e⟩ | ⟨_, _, k, k', _, e⟩ | ⟨e1, _, _⟩ | ⟨_, e⟩ | ⟨_, e⟩
      case inr.inr.inr.inl =>
        rw [if_neg (by rw [e1]; simp)]
        have h1 := hc (x.cSince + v.step) (by simp [consumerBy, e1])
        rw [h.rdr e1] at h1
        exact h1
      all_goals rw [e] at hk; cases hk
    · intro hk
      rw [ec]
      obtain ⟨b1, b2, _⟩ := base
      unfold Ends
      split
      all_goals first | linarith | exact ⟨by linarith, by linarith⟩
    · intro hk _
      have hk := hm _ hk
      rcases hmv with e | ⟨e0, e | ⟨k, e⟩ | e | e⟩ | ⟨_, _, k, k', _, e⟩ | ⟨e1, _, e⟩ | ⟨_, e⟩ | ⟨_, e⟩
      case inr.inr.inr.inl =>
        show s'.queue.length < _
        have := h.bd.len
        rw [e, List.length_tail]
        omega
      all_goals rw [e] at hk; cases hk
    · intro hk
      have hk := hm _ hk
      rw [ec, el]
      rcases hmv with e | ⟨e0, _⟩ | ⟨_, _, k, k', _, e⟩ | ⟨_, e, _⟩ | ⟨_, e⟩ | ⟨_, e⟩
      · rw [e] at hk; cases hk
      · rw [if_pos e0]
      all_goals rw [e] at hk; cases hk
    · intro hk
      have hk := hm _ hk
      rw [ec, el]
      rcases hmv with e | ⟨e0, e | ⟨k, e⟩ | e | e⟩ | ⟨_, _, k, k', _, e⟩ | ⟨_, e, _⟩ | ⟨e1, _⟩ | ⟨_, e⟩
      case inr.inr.inr.inr.inl =>
        rw [if_neg (by rw [e1]; simp)]
        have h1 := hc (x.cSince + v.step) (by simp [consumerBy, e1])
        rw [h.sdr e1] at h1
        exact h1
      all_goals rw [e] at hk; cases hk
    · intro hk
      have hk := hm _ hk
      rw [ec, el]
      rcases hmv with e | ⟨e0, e | ⟨k, e⟩ | e | e⟩ | ⟨_, _, k, k', _, e⟩ | ⟨_, e, _⟩ | ⟨_, e⟩ | ⟨e1, _⟩
      case inr.inr.inr.inr.inr =>
        rw [if_neg (by rw [e1]; simp)]
        have h1 := hc (x.cSince + v.step) (by simp [consumerBy, e1])
        have h2 := h.spt e1
        linarith
      all_goals rw [e] at hk; cases hk

theorem Runs.timely {v : Speed} (hl : 0 ≤ v.load) (hs : 0 ≤ v.step) (hT1 : 0 ≤ T.startup) (hT2 : 0 ≤ T.steady) (hT3 : 0 ≤ T.join) (hb : 0 < cfg.bufferSize)
    {src0 : S} {x' : TSt S B} {t0 : ℚ} {as : List (ℚ × Action)} {os : List (Out B)}
    (h : Runs p cfg T (fun x t => WorkerPrompt cfg T v x t ∧ ConsumerPrompt T v x t) (tinit t0 src0) as os x') : Timely cfg T v x' :=
  h.invariant (Timely cfg T v) (fun _ => True) (fun _ _ _ _ _ hi hk _ hx => hi.step hl hs hT1 hT2 hT3 hb hk.1 hk.2 hx) (fun _ _ => trivial) (Timely.init t0)

/-- How long the call under way can have been under way. -/
theorem Timely.calls {v : Speed} (hl : 0 ≤ v.load) (hs : 0 ≤ v.step) (hT1 : 0 ≤ T.startup) (hT2 : 0 ≤ T.steady) (hT3 : 0 ≤ T.join) {x : TSt S B} {t : ℚ}
    (h : Timely cfg T v x) (hw : WorkerPrompt cfg T v x t) (hc : ConsumerPrompt T v x t) :
    (x.s.c = .getWait → t ≤ x.call + getTimeout T x.s + 2 * v.step) ∧
    ((∃ k, x.s.c = .discard k) → t ≤ x.call + T.join + 4 * v.step) ∧
    (x.s.c = .resetDrain ∨ x.s.c = .resetJoin → t ≤ x.call + v.load + 4 * v.step) ∧
    (x.s.c = .shutDrain ∨ x.s.c = .shutPut ∨ x.s.c = .shutJoin → t ≤ x.call + T.join + 3 * v.step) := by
  have hgt : 0 ≤ getTimeout T x.s := by unfold getTimeout; split <;> assumption
  refine ⟨?_, ?_, ?_, ?_⟩
  · intro hk
    have h0 := h.getc hk
    by_cases hq : x.s.queue = []
    · have := hc _ (by unfold consumerBy; rw [hk, hq]; rfl)
      linarith
    · have h1 := hc (max x.cSince x.item + v.step) (by simp [consumerBy, hk, hq])
      have h2 := h.geti hk hq
      rcases max_cases x.cSince x.item with ⟨e, _⟩ | ⟨e, _⟩ <;> rw [e] at h1 <;> linarith
  · rintro ⟨k, hk⟩
    have h0 := h.disc k hk
    by_cases hq : x.s.queue = []
    · have h1 := hc _ (by unfold consumerBy; rw [hk, hq]; rfl)
      rcases max_cases x.cSince (x.call + T.join) with ⟨e, _⟩ | ⟨e, _⟩ <;> rw [e] at h1 <;> linarith
    · have h1 := hc (max x.cSince x.item + v.step) (by simp [consumerBy, hk, hq])
      have h2 := h.disi k hk hq
      have h3 : x.item ≤ x.call + T.join + 3 * v.step := by
        rcases max_cases x.cSince (x.call + T.join) with ⟨e, _⟩ | ⟨e, _⟩ <;> rw [e] at h2 <;> linarith
      rcases max_cases x.cSince x.item with ⟨e, _⟩ | ⟨e, _⟩ <;> rw [e] at h1 <;> linarith
  · rintro (hk | hk)
    · have h1 := hc (x.cSince + v.step) (by simp [consumerBy, hk])
      rw [h.rdr hk] at h1
      linarith
    · have h0 := h.rjn hk
      have h1 := h.rwk hk
      have hj := h.bd.join hk
      unfold Ends at h1
      unfold WorkerPrompt workerBy at hw
      cases hxw : x.s.w with
      | loop =>
        rw [hxw] at h1 hw
        have h1 : x.wSince + v.step ≤ _ := h1
        have := hw _ rfl
        linarith
      | fetch =>
        rw [hxw] at h1 hw
        have := hw _ rfl
        linarith [h1.1]
      | put b =>
        rw [hxw] at h1 hw
        have := hw (max x.wSince x.room + v.step) (by simp [hj.2 (by rw [hxw]; rfl)])
        rcases max_cases x.wSince x.room with ⟨e, _⟩ | ⟨e, _⟩ <;> rw [e] at this <;> linarith [h1.1, h1.2]
      | eos =>
        rw [hxw] at h1 hw
        have := hw (max x.wSince x.room + v.step) (by simp [h.rrm hk hxw])
        rcases max_cases x.wSince x.room with ⟨e, _⟩ | ⟨e, _⟩ <;> rw [e] at this <;> linarith [h1.1, h1.2]
      | eosForce =>
        rw [hxw] at h1 hw
        have h1 : x.wSince + 2 * v.step ≤ _ := h1
        have := hw _ rfl
        linarith
      | eosStop =>
        rw [hxw] at h1 hw
        have h1 : x.wSince + v.step ≤ _ := h1
        have := hw _ rfl
        linarith
      | _ =>
        rw [hxw] at h1
        have h1 : x.wSince ≤ _ := h1
        have h2 := hc (max x.cSince x.wSince + v.step) (by simp [consumerBy, hk, hxw, WPc.ended])
        rcases max_cases x.cSince x.wSince with ⟨e, _⟩ | ⟨e, _⟩ <;> rw [e] at h2 <;> linarith
  · rintro (hk | hk | hk)
    · have h1 := hc (x.cSince + v.step) (by simp [consumerBy, hk])
      rw [h.sdr hk] at h1
      linarith
    · have h1 := hc (x.cSince + v.step) (by simp [consumerBy, hk])
      have h2 := h.spt hk
      linarith
    · have h1 := hc (x.cSince + T.join + v.step) (by simp [consumerBy, hk])
      have h2 := h.sjn hk
      linarith

end Verif.Timed
