import Verif.Proofs.Changing
/-!
# Files that change while they are served, and how often they are opened (C145, C146)
-/

namespace Verif.Changing
open Verif Base
variable {V D Key : Type}

theorem getNext_read {w' : Base.World V D Key} {c : String → List (Sample V)} {cfg : Cfg} (hl : cfg.loop = false) {order : List String} (hn : order.Nodup)
    (hy : ∀ p ∈ order, Yields w' p (c p)) : ∀ (fuel : Nat) (s : St D Key) (m k : Nat), Read w' c order s m k → ∀ r s', Base.getNext w' cfg fuel s = some (r, s') →
    ∃ m', (m' = 0 ∨ before c order (m' - 1) ≤ k) ∧ ((∃ x, r = .ret x ∧ Read w' c order s' m' (k + 1)) ∨ (r = .stop ∧ Read w' c order s' m' k)) := by
  intro fuel
  induction fuel with
  | zero => intro s m k _ r s' h; simp [Base.getNext] at h
  | succ fuel ih =>
    intro s m k h r s' hg
    simp only [Base.getNext] at hg
    rcases iter_read hl hn hy h with ⟨s1, m1, e, _, h1⟩ | ⟨x, s1, m1, e, _, h1, h2⟩ | e
    · rw [e] at hg; exact ih s1 m1 k h1 r s' hg
    · rw [e] at hg
      simp only [Option.some.injEq, Prod.mk.injEq] at hg
      obtain ⟨rfl, rfl⟩ := hg
      exact ⟨m1, .inr h2, .inl ⟨x, rfl, h1⟩⟩
    · rw [e] at hg
      simp only [Option.some.injEq, Prod.mk.injEq] at hg
      obtain ⟨rfl, rfl⟩ := hg
      exact ⟨m, h.last, .inr ⟨rfl, h⟩⟩

theorem collect_read {w' : Base.World V D Key} {c : String → List (Sample V)} {cfg : Cfg} (hl : cfg.loop = false) {order : List String} (hn : order.Nodup)
    (hy : ∀ p ∈ order, Yields w' p (c p)) (fuel : Nat) : ∀ (n : Nat) (s : St D Key) (m k r : Nat), Read w' c order s m k → k ≤ r → (m = 0 ∨ before c order (m - 1) < r) →
    ∀ o s', Base.collect w' cfg fuel n s = some (o, s') → ∃ m' k', Read w' c order s' m' k' ∧ k' ≤ r + n ∧ (m' = 0 ∨ before c order (m' - 1) < r + n) := by
  intro n
  induction n with
  | zero =>
    intro s m k r h hk hb o s' hc
    simp only [Base.collect, Option.some.injEq, Prod.mk.injEq] at hc
    obtain ⟨rfl, rfl⟩ := hc
    exact ⟨m, k, h, hk, hb⟩
  | succ n ih =>
    intro s m k r h hk hb o s' hc
    simp only [Base.collect] at hc
    cases hg : Base.getNext w' cfg fuel s with
    | none => rw [hg] at hc; simp at hc
    | some q =>
      obtain ⟨x, s1⟩ := q
      obtain ⟨m1, hm1, hx⟩ := getNext_read hl hn hy fuel s m k h x s1 hg
      rw [hg] at hc
      rcases hx with ⟨x, rfl, h1⟩ | ⟨rfl, h1⟩
      · simp only at hc
        cases hc1 : Base.collect w' cfg fuel n s1 with
        | none => rw [hc1] at hc; simp at hc
        | some q =>
          obtain ⟨o1, s2⟩ := q
          obtain ⟨m2, k2, h2, h3, h4⟩ := ih s1 m1 (k + 1) (r + 1) h1 (by omega) (by omega) o1 s2 hc1
          have : s2 = s' := by
            rw [hc1] at hc
            cases o1 <;> · simp only [Option.some.injEq, Prod.mk.injEq] at hc; exact hc.2
          subst this
          exact ⟨m2, k2, h2, by omega, by omega⟩
      · simp only [Option.some.injEq, Prod.mk.injEq] at hc
        obtain ⟨rfl, rfl⟩ := hc
        exact ⟨m1, k, h1, by omega, by omega⟩

theorem runBatches_read {w' : Base.World V D Key} {c : String → List (Sample V)} {cfg : Cfg} (hl : cfg.loop = false) {order : List String} (hn : order.Nodup)
    (hy : ∀ p ∈ order, Yields w' p (c p)) (zero : V) (fuel : Nat) : ∀ (ns : List Nat) (s : St D Key) (m k r : Nat), Read w' c order s m k → k ≤ r → (m = 0 ∨ before c order (m - 1) < r) →
    ∀ o s', Base.runBatches zero w' cfg fuel ns s = some (o, s') → ∃ m' k', Read w' c order s' m' k' ∧ (m' = 0 ∨ before c order (m' - 1) < r + ns.sum) := by
  intro ns
  induction ns with
  | nil =>
    intro s m k r h hk hb o s' hc
    simp only [Base.runBatches, Option.some.injEq, Prod.mk.injEq] at hc
    obtain ⟨rfl, rfl⟩ := hc
    exact ⟨m, k, h, by simpa using hb⟩
  | cons n ns ih =>
    intro s m k r h hk hb o s' hc
    simp only [Base.runBatches] at hc
    cases hg : Base.getBatch zero w' cfg fuel n s with
    | none => rw [hg] at hc; simp at hc
    | some q =>
      obtain ⟨x, s1⟩ := q
      rw [hg] at hc
      simp only at hc
      have h1 : ∃ m' k', Read w' c order s1 m' k' ∧ k' ≤ r + n ∧ (m' = 0 ∨ before c order (m' - 1) < r + n) := by
        unfold Base.getBatch at hg
        cases hcc : Base.collect w' cfg fuel n s with
        | none => rw [hcc] at hg; simp at hg
        | some q =>
          obtain ⟨o1, s2⟩ := q
          have := collect_read hl hn hy fuel n s m k r h hk hb o1 s2 hcc
          rw [hcc] at hg
          have e : s2 = s1 := by
            cases o1 with
            | error e => simp only [Option.some.injEq, Prod.mk.injEq] at hg; exact hg.2
            | ok batch =>
              simp only [hl, Bool.false_eq_true, if_false] at hg
              split at hg <;> · simp only [Option.some.injEq, Prod.mk.injEq] at hg; exact hg.2
          exact e ▸ this
      obtain ⟨m1, k1, a1, a2, a3⟩ := h1
      cases hr : Base.runBatches zero w' cfg fuel ns s1 with
      | none => rw [hr] at hc; simp at hc
      | some q =>
        obtain ⟨o2, s2⟩ := q
        rw [hr] at hc
        simp only [Option.some.injEq, Prod.mk.injEq] at hc
        obtain ⟨_, rfl⟩ := hc
        obtain ⟨m2, k2, b1, b2⟩ := ih s1 m1 k1 (r + n) a1 a2 a3 o2 s2 hr
        exact ⟨m2, k2, b1, by simpa [Nat.add_assoc] using b2⟩

theorem passOrder_nodup {w : Base.World V D Key} {cfg : Cfg} (hp : cfg.randomize = true → PermOK w) {fl : List String} (hn : fl.Nodup) (key : Key) (k : Nat) :
    (passOrder w cfg fl key k).Nodup := by
  unfold passOrder
  split
  · rename_i h; exact (epochOrder_perm (hp h) key fl (k + 1)).nodup_iff.2 hn
  · exact hn

theorem init_at (w : Base.World V D Key) (cfg : Cfg) (fl : List String) (key : Key) : At (passOrder w cfg fl key 0) (init w cfg fl key : St D Key) 0 :=
  ⟨shuffles_order w cfg fl key 0, Nat.zero_le _, .inl ⟨rfl, by simp [init]⟩⟩

/-- **C145.** However the files change while they are served, a scheduler that does not loop behaves, for every sequence of batch sizes, as if they did not change: each file
is for it what it is when it is opened, which happens once, in the order of the list. Files without repetitions. -/
theorem C145_as_if_still (zero : V) (w : World V D Key) (cfg : Cfg) (hl : cfg.loop = false) (hp : cfg.randomize = true → PermOK (w.now 0)) (fl : List String) (hn : fl.Nodup) (key : Key)
    (ns : List Nat) (fuel : Nat) :
    let order := passOrder (w.now 0) cfg fl key 0
    ∃ m, runBatches zero w cfg fuel ns (init (w.now 0) cfg fl key) [] =
      (Base.runBatches zero (seen w order) cfg fuel ns (init (seen w order) cfg fl key)).map (fun q => (q.1, q.2, order.take m)) := by
  intro order
  have hinit : (init (seen w order) cfg fl key : St D Key) = init (w.now 0) cfg fl key := rfl
  rw [hinit]
  rcases runBatches_at (w := w) hl (passOrder_nodup hp hn key 0) zero fuel ns _ 0 (init_at (w.now 0) cfg fl key) with ⟨h1, h2⟩ | ⟨r, s', m', h1, h2, _, _⟩
  · exact ⟨0, by rw [h1]; exact h2⟩
  · exact ⟨m', by rw [h1]; exact h2⟩

/-- **C145**, what is delivered: the samples of the files as they are when they are opened, each once, in order; and no file is opened before more samples are asked for than
the files before it have. `c p` are the samples of the file `p` as it is when opened. -/
theorem C145_delivered (zero : V) (w : World V D Key) (cfg : Cfg) (hl : cfg.loop = false) (hp : cfg.randomize = true → PermOK (w.now 0)) (fl : List String) (hn : fl.Nodup) (key : Key)
    (c : String → List (Sample V)) (hy : ∀ p ∈ fl, Yields (seen w (passOrder (w.now 0) cfg fl key 0)) p (c p)) {fsh o1 o2 named} (hu : Uniform (fl.flatMap c) fsh o1 o2 named)
    (ns : List Nat) (fuel : Nat) (hf : fl.length < fuel) :
    let order := passOrder (w.now 0) cfg fl key 0
    ∃ outs s' m, runBatches zero w cfg fuel ns (init (w.now 0) cfg fl key) [] = some (outs, s', order.take m) ∧
      outs.flatMap delivered = ((order.flatMap c).take ns.sum).map Sample.row ∧ m ≤ order.length ∧
      (m = 0 ∨ ((order.take (m - 1)).flatMap c).length < ns.sum) := by
  intro order
  have hno := passOrder_nodup hp hn key 0
  have hinit : (init (seen w order) cfg fl key : St D Key) = init (w.now 0) cfg fl key := rfl
  have hord : passOrder (seen w order) cfg fl key 0 = order := rfl
  obtain ⟨outs, s', h1, h2⟩ := C01_every_slice_once_partial zero (seen w order) cfg hl hp fl key c hy hu (by rw [hord]; exact nodup_chain hno) ns fuel hf
  rw [hord] at h2
  rw [hinit] at h1
  rcases runBatches_at (w := w) hl hno zero fuel ns _ 0 (init_at (w.now 0) cfg fl key) with ⟨g1, _⟩ | ⟨r, s'', m', g1, g2, _, g4⟩
  · exact absurd (g1.symm.trans h1) (by simp)
  · have e := g1.symm.trans h1
    simp only [Option.some.injEq, Prod.mk.injEq] at e
    obtain ⟨rfl, rfl⟩ := e
    have hmem : ∀ p ∈ order, Yields (seen w order) p (c p) := by
      intro p hpo
      refine hy p ?_
      have : order.Perm fl := by
        show (passOrder (w.now 0) cfg fl key 0).Perm fl
        unfold passOrder
        split
        · rename_i h; exact epochOrder_perm (hp h) key fl 1
        · exact List.Perm.refl _
      exact this.mem_iff.1 hpo
    obtain ⟨m2, k2, b1, b2⟩ := runBatches_read (w' := seen w order) hl hno hmem zero fuel ns _ 0 0 0
      ⟨init_at (w.now 0) cfg fl key, .inl ⟨rfl, by simp [before]⟩⟩ le_rfl (.inl rfl) _ _ g1
    have em := At.unique hno g4 b1.at_
    subst em
    exact ⟨r, s'', m', g2, h2, g4.le, by simpa [before] using b2⟩

/-! ### Again after `reset()` -/

theorem getNext_after (w : World V D Key) (cfg : Cfg) (l0 : List String) : ∀ (fuel : Nat) (s : St D Key) (log : List String),
    getNext w cfg fuel s (l0 ++ log) = (getNext (w.after l0.length) cfg fuel s log).map (fun q => (q.1, q.2.1, l0 ++ q.2.2)) := by
  intro fuel
  induction fuel with
  | zero => intro s log; rfl
  | succ fuel ih =>
    intro s log
    simp only [getNext]
    have e1 : w.now (l0 ++ log).length = (w.after l0.length).now log.length := by simp [World.now, World.after]
    have e2 : opensIn (w.after l0.length) cfg s = opensIn w cfg s := rfl
    rw [e1, e2]
    cases hi : iter ((w.after l0.length).now log.length) cfg s with
    | cont s' => simp only [List.append_assoc]; exact ih _ _
    | ret x s' => simp
    | stop s' => simp
    | raise e s' => simp

theorem collect_after (w : World V D Key) (cfg : Cfg) (l0 : List String) (fuel : Nat) : ∀ (n : Nat) (s : St D Key) (log : List String),
    collect w cfg fuel n s (l0 ++ log) = (collect (w.after l0.length) cfg fuel n s log).map (fun q => (q.1, q.2.1, l0 ++ q.2.2)) := by
  intro n
  induction n with
  | zero => intro s log; rfl
  | succ n ih =>
    intro s log
    simp only [collect, getNext_after]
    cases hg : getNext (w.after l0.length) cfg fuel s log with
    | none => rfl
    | some q =>
      obtain ⟨r, s', log'⟩ := q
      cases r with
      | stop => rfl
      | raise e => simp only [Option.map_some]; split <;> rfl
      | ret x =>
        simp only [Option.map_some, ih]
        cases hc : collect (w.after l0.length) cfg fuel n s' log' with
        | none => rfl
        | some q =>
          obtain ⟨r, s'', log''⟩ := q
          cases r <;> rfl

theorem runBatches_after (zero : V) (w : World V D Key) (cfg : Cfg) (l0 : List String) (fuel : Nat) : ∀ (ns : List Nat) (s : St D Key) (log : List String),
    runBatches zero w cfg fuel ns s (l0 ++ log) = (runBatches zero (w.after l0.length) cfg fuel ns s log).map (fun q => (q.1, q.2.1, l0 ++ q.2.2)) := by
  intro ns
  induction ns with
  | nil => intro s log; rfl
  | cons n ns ih =>
    intro s log
    have hb : getBatch zero w cfg fuel n s (l0 ++ log) = (getBatch zero (w.after l0.length) cfg fuel n s log).map (fun q => (q.1, q.2.1, l0 ++ q.2.2)) := by
      unfold getBatch
      rw [collect_after]
      cases hc : collect (w.after l0.length) cfg fuel n s log with
      | none => rfl
      | some q =>
        obtain ⟨r, s', log'⟩ := q
        cases r with
        | error e => rfl
        | ok batch =>
          simp only [Option.map_some]
          split
          · split <;> rfl
          · rfl
    simp only [runBatches, hb]
    cases hg : getBatch zero (w.after l0.length) cfg fuel n s log with
    | none => rfl
    | some q =>
      obtain ⟨r, s', log'⟩ := q
      simp only [Option.map_some, ih]
      cases hr : runBatches zero (w.after l0.length) cfg fuel ns s' log' with
      | none => rfl
      | some q => rfl

/-- **C145**, after `reset()`: from any state, the scheduler serves the files as they are from then on, as a new one does. -/
theorem C145_reset (zero : V) (w : World V D Key) (cfg : Cfg) (s : St D Key) (log : List String) (ns : List Nat) (fuel : Nat) :
    runBatches zero w cfg fuel ns (Base.reset (w.now 0) cfg s) log =
      (runBatches zero (w.after log.length) cfg fuel ns (init ((w.after log.length).now 0) cfg s.fileList s.key) []).map (fun q => (q.1, q.2.1, log ++ q.2.2)) := by
  have := runBatches_after zero w cfg log fuel ns (Base.reset (w.now 0) cfg s) []
  rw [List.append_nil] at this
  exact this

/-! ### Each file is opened once in every pass -/

theorem body_key (w' : Base.World V D Key) (s : St D Key) : (body w' s).state.key = s.key := by
  have hs (s1 : St D Key) (p : String) (d : D) : (takeSlice w' s1 p d).state.key = s1.key := by
    unfold takeSlice
    cases w'.slice p d s1.sliceIdx <;> rfl
  have hl (p : String) : (match w'.load p with
      | .ok d' => takeSlice w' { s with cached := some (p, d'), sliceIdx := 0 } p d'
      | .error _ => Step.cont { s with cached := none, index := s.index + 1 } : Step V D Key).state.key = s.key := by
    cases w'.load p with
    | error e => rfl
    | ok d => exact hs _ _ _
  unfold body
  cases s.fileList[s.index]? with
  | none => rfl
  | some p =>
    cases hc : s.cached with
    | none => exact hl p
    | some qd =>
      obtain ⟨q, d⟩ := qd
      by_cases hq : q = p
      · simp only [if_pos hq]; exact hs _ _ _
      · simp only [if_neg hq]
        exact hl p

/-- After the passes `0, ..., e - 1`, in each of which an initial part of the list was opened, the scheduler is in pass `e`. -/
def InPass (w : World V D Key) (cfg : Cfg) (fl : List String) (key : Key) (s : St D Key) (log : List String) : Prop :=
  ∃ (e m : Nat) (ks : Nat → Nat), s.key = (shuffles (w.now 0) cfg (fl, key) (e + 1)).2 ∧ At (passOrder (w.now 0) cfg fl key e) s m ∧
    log = (List.range e).flatMap (fun i => (passOrder (w.now 0) cfg fl key i).take (ks i)) ++ (passOrder (w.now 0) cfg fl key e).take m

theorem inPass_reset {w : World V D Key} {cfg : Cfg} {fl : List String} {key : Key} {s : St D Key} {log : List String} (h : InPass w cfg fl key s log) :
    InPass w cfg fl key (Base.reset (w.now 0) cfg s) log := by
  obtain ⟨e, m, ks, hk, hat, hlog⟩ := h
  have hsh : shuffle (w.now 0) cfg s.fileList s.key = shuffles (w.now 0) cfg (fl, key) (e + 1 + 1) := by
    rw [shuffles_succ, hk, hat.list]
    congr 1
    exact (shuffles_order (w.now 0) cfg fl key e).symm
  refine ⟨e + 1, 0, fun i => if i = e then m else ks i, ?_, ⟨?_, Nat.zero_le _, .inl ⟨rfl, by simp [Base.reset]⟩⟩, ?_⟩
  · show (shuffle (w.now 0) cfg s.fileList s.key).2 = _
    rw [hsh]
  · show (shuffle (w.now 0) cfg s.fileList s.key).1 = _
    rw [hsh]
    exact shuffles_order (w.now 0) cfg fl key (e + 1)
  · rw [hlog, List.range_succ, List.flatMap_append, List.flatMap_singleton, List.take_zero, List.append_nil]
    simp only [if_true]
    congr 1
    refine List.flatMap_congr (fun i hi => ?_)
    rw [if_neg (List.mem_range.1 hi).ne]

theorem iter_inPass {w : World V D Key} {cfg : Cfg} (hp : cfg.randomize = true → PermOK (w.now 0)) {fl : List String} (hn : fl.Nodup) (hne : fl ≠ []) {key : Key} {s : St D Key}
    {log : List String} (h : InPass w cfg fl key s log) (t : Nat) : InPass w cfg fl key (iter (w.now t) cfg s).state (log ++ (opensIn w cfg s).toList) := by
  have hbody {s : St D Key} (h : InPass w cfg fl key s log) (hi : s.index < s.fileList.length) : InPass w cfg fl key (body (w.now t) s).state (log ++ (opens s).toList) := by
    obtain ⟨e, m, ks, hk, hat, hlog⟩ := h
    obtain ⟨h1, _, h3⟩ := body_at (passOrder_nodup hp hn key e) hat (hat.list ▸ hi) (w.now t)
    refine ⟨e, s.index + 1, ks, by rw [body_key, hk], h3, ?_⟩
    rw [hlog, List.append_assoc, h1]
  unfold iter opensIn
  by_cases hi : s.index < s.fileList.length
  · simp only [if_pos hi]
    exact hbody h hi
  · simp only [if_neg hi]
    cases hl : cfg.loop with
    | false =>
      simp only [Bool.false_eq_true, if_false, Option.toList_none, List.append_nil]
      exact h
    | true =>
      simp only [if_true]
      have hr := inPass_reset h
      refine hbody hr ?_
      obtain ⟨e, m, ks, _, hat, _⟩ := hr
      have hlen : (passOrder (w.now 0) cfg fl key e).length = fl.length := by
        unfold passOrder
        split
        · rename_i hh; exact (epochOrder_perm (hp hh) key fl (e + 1)).length_eq
        · rfl
      show 0 < (Base.reset (w.now 0) cfg s).fileList.length
      rw [hat.list, hlen]
      exact List.length_pos_iff.2 hne

theorem getNext_inPass {w : World V D Key} {cfg : Cfg} (hp : cfg.randomize = true → PermOK (w.now 0)) {fl : List String} (hn : fl.Nodup) (hne : fl ≠ []) {key : Key} :
    ∀ (fuel : Nat) (s : St D Key) (log : List String), InPass w cfg fl key s log → ∀ r s' log', getNext w cfg fuel s log = some (r, s', log') → InPass w cfg fl key s' log' := by
  intro fuel
  induction fuel with
  | zero => intro s log _ r s' log' h; simp [getNext] at h
  | succ fuel ih =>
    intro s log h r s' log' hg
    have hi := iter_inPass hp hn hne h log.length
    simp only [getNext] at hg
    cases hit : iter (w.now log.length) cfg s with
    | cont s1 => rw [hit] at hg hi; exact ih s1 _ hi r s' log' hg
    | ret x s1 =>
      rw [hit] at hg hi
      simp only [Option.some.injEq, Prod.mk.injEq] at hg
      obtain ⟨_, rfl, rfl⟩ := hg
      exact hi
    | stop s1 =>
      rw [hit] at hg hi
      simp only [Option.some.injEq, Prod.mk.injEq] at hg
      obtain ⟨_, rfl, rfl⟩ := hg
      exact hi
    | raise x s1 =>
      rw [hit] at hg hi
      simp only [Option.some.injEq, Prod.mk.injEq] at hg
      obtain ⟨_, rfl, rfl⟩ := hg
      exact hi

theorem collect_inPass {w : World V D Key} {cfg : Cfg} (hp : cfg.randomize = true → PermOK (w.now 0)) {fl : List String} (hn : fl.Nodup) (hne : fl ≠ []) {key : Key} (fuel : Nat) :
    ∀ (n : Nat) (s : St D Key) (log : List String), InPass w cfg fl key s log → ∀ r s' log', collect w cfg fuel n s log = some (r, s', log') → InPass w cfg fl key s' log' := by
  intro n
  induction n with
  | zero =>
    intro s log h r s' log' hc
    simp only [collect, Option.some.injEq, Prod.mk.injEq] at hc
    obtain ⟨_, rfl, rfl⟩ := hc
    exact h
  | succ n ih =>
    intro s log h r s' log' hc
    simp only [collect] at hc
    cases hg : getNext w cfg fuel s log with
    | none => rw [hg] at hc; simp at hc
    | some q =>
      obtain ⟨x, s1, log1⟩ := q
      have h1 := getNext_inPass hp hn hne fuel s log h x s1 log1 hg
      rw [hg] at hc
      cases x with
      | stop =>
        simp only [Option.some.injEq, Prod.mk.injEq] at hc
        obtain ⟨_, rfl, rfl⟩ := hc
        exact h1
      | raise e =>
        simp only at hc
        split at hc <;>
        · simp only [Option.some.injEq, Prod.mk.injEq] at hc
          obtain ⟨_, rfl, rfl⟩ := hc
          exact h1
      | ret x =>
        simp only at hc
        cases hc1 : collect w cfg fuel n s1 log1 with
        | none => rw [hc1] at hc; simp at hc
        | some q =>
          obtain ⟨o, s2, log2⟩ := q
          have h2 := ih s1 log1 h1 o s2 log2 hc1
          rw [hc1] at hc
          cases o <;>
          · simp only [Option.some.injEq, Prod.mk.injEq] at hc
            obtain ⟨_, rfl, rfl⟩ := hc
            exact h2

/-- **C146.** Over every history of `get_batch` and `reset` calls, looping or not, shuffled or not, whatever the files are: the files are opened pass by pass, in each pass an
initial part of the list in force, so each file at most once per pass. -/
theorem C146_once_per_pass (zero : V) (w : World V D Key) (cfg : Cfg) (hp : cfg.randomize = true → PermOK (w.now 0)) (fl : List String) (hn : fl.Nodup) (hne : fl ≠ []) (key : Key) (fuel : Nat)
    (calls : List (Option Nat)) (s' : St D Key) (log : List String) (h : runCalls zero w cfg fuel calls (init (w.now 0) cfg fl key) [] = some (s', log)) :
    ∃ (e : Nat) (ks : Nat → Nat), log = (List.range (e + 1)).flatMap (fun i => (passOrder (w.now 0) cfg fl key i).take (ks i)) ∧
      ∀ i, (passOrder (w.now 0) cfg fl key i).Nodup := by
  have key0 : ∀ (calls : List (Option Nat)) (s : St D Key) (log0 : List String), InPass w cfg fl key s log0 → runCalls zero w cfg fuel calls s log0 = some (s', log) → InPass w cfg fl key s' log := by
    intro calls
    induction calls with
    | nil =>
      intro s log0 h0 hr
      simp only [runCalls, Option.some.injEq, Prod.mk.injEq] at hr
      obtain ⟨rfl, rfl⟩ := hr
      exact h0
    | cons o calls ih =>
      intro s log0 h0 hr
      cases o with
      | none => exact ih _ _ (inPass_reset h0) hr
      | some n =>
        simp only [runCalls] at hr
        cases hg : getBatch zero w cfg fuel n s log0 with
        | none => rw [hg] at hr; simp at hr
        | some q =>
          obtain ⟨r, s1, log1⟩ := q
          rw [hg] at hr
          refine ih s1 log1 ?_ hr
          unfold getBatch at hg
          cases hc : collect w cfg fuel n s log0 with
          | none => rw [hc] at hg; simp at hg
          | some q =>
            obtain ⟨o, s2, log2⟩ := q
            have h2 := collect_inPass hp hn hne fuel n s log0 h0 o s2 log2 hc
            rw [hc] at hg
            cases o with
            | error e =>
              simp only [Option.some.injEq, Prod.mk.injEq] at hg
              obtain ⟨_, rfl, rfl⟩ := hg
              exact h2
            | ok batch =>
              simp only at hg
              split at hg
              · split at hg <;>
                · simp only [Option.some.injEq, Prod.mk.injEq] at hg
                  obtain ⟨_, rfl, rfl⟩ := hg
                  first | exact h2 | exact inPass_reset h2
              · simp only [Option.some.injEq, Prod.mk.injEq] at hg
                obtain ⟨_, rfl, rfl⟩ := hg
                exact h2
  obtain ⟨e, m, ks, _, _, hlog⟩ := key0 calls _ [] ⟨0, 0, fun _ => 0, rfl, init_at (w.now 0) cfg fl key, by simp⟩ h
  refine ⟨e, fun i => if i = e then m else ks i, ?_, passOrder_nodup hp hn key⟩
  rw [hlog, List.range_succ, List.flatMap_append, List.flatMap_singleton]
  simp only [if_true]
  congr 1
  refine List.flatMap_congr (fun i hi => ?_)
  rw [if_neg (List.mem_range.1 hi).ne]

/-- Files "a" (two samples) and "b" (one): "a" is unreadable at first. -/
def demo : World Nat (List (Sample Nat)) KeyTerm :=
  ⟨fun t p => if t = 0 then .error .fileNotFound else Demo.world.load p, Demo.world.slice, Demo.world.split, Demo.world.perm⟩

/-- Without looping "a" is passed over, although it has been repaired meanwhile; after the reset it is served. -/
example : (runBatches 0 demo ⟨false, false⟩ 7 [1, 1] (init (demo.now 0) ⟨false, false⟩ ["a", "b"] (.seed 0)) []).map (fun q => (q.1.flatMap delivered, q.2.2)) =
      some ([(Demo.sample "b" 3).row], ["a", "b"]) ∧
    (runCalls 0 demo ⟨false, false⟩ 7 [some 1, none, some 1] (init (demo.now 0) ⟨false, false⟩ ["a", "b"] (.seed 0)) []).map (fun q => q.2) = some ["a", "b", "a"] ∧
    (runCalls 0 demo ⟨true, false⟩ 7 [some 1, some 1, some 1, some 1] (init (demo.now 0) ⟨true, false⟩ ["a", "b"] (.seed 0)) []).map (fun q => q.2) = some ["a", "b", "a", "b"] :=
  ⟨rfl, rfl, rfl⟩

/-- The hypotheses of `C145_delivered` are met. -/
example : (["a", "b"] : List String).Nodup ∧ Yields (seen demo ["a", "b"]) "a" [] ∧ Yields (seen demo ["a", "b"]) "b" [Demo.sample "b" 3] := by
  refine ⟨by decide, rfl, ?_⟩
  exact Demo.world_yields "b" (by decide)

end Verif.Changing
