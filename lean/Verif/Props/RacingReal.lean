import Verif.Spec.RacingReal
/-!
# C181: threads that share a sampler of real images
-/

namespace Verif.RacingReal
open Verif Sampler

variable {S V Key : Type}

private theorem Draws.snoc {sch : Sched S (Base.Batch V)} {n : Nat} {s : S} {rs : List (Except Exc (Base.Batch V))} {t : S} (h : Draws sch n s rs t)
    {r : Except Exc (Base.Batch V)} {u : S} (hr : sch.getBatch n t = some (r, u)) : Draws sch n s (rs ++ [r]) u := by
  induction h with
  | nil s => exact .cons hr (.nil u)
  | cons h1 _ ih => exact .cons h1 (ih hr)

private theorem ofThread_append {A : Type} (i : Nat) (l m : List (Nat × A)) : ofThread i (l ++ m) = ofThread i l ++ ofThread i m := by
  simp [ofThread]

private theorem ofThread_own {A : Type} (i : Nat) (a : A) : ofThread i [(i, a)] = [a] := by simp [ofThread]

private theorem ofThread_other {A : Type} {i j : Nat} (h : j ≠ i) (a : A) : ofThread j [(i, a)] = [] := by
  simp [ofThread, Ne.symm h]

section inv
variable (sch : Sched S (Base.Batch V)) (ep : Option Episodic.Cfg) (B : Nat) (w : S)

/-- The calls that have reached the scheduler: all without episodes, all but those that end with `EpisodeEnd` otherwise. -/
private def cnt (r : Except Exc (RealBatch V)) : Bool := ep.isNone || !isEnd r

private def pend : EPc V → List (Except Exc (RealBatch V))
  | .flags b => [noFlags (.ok b)]
  | .done r => if cnt ep r then [noFlags r] else []
  | _ => []

private def tells : EPc V → Bool
  | .done r => isEnd r || isLast r
  | _ => false

private structure Inv (s : ESt S V Key) (order : List (Nat × Except Exc (Base.Batch V))) (P : List Nat) : Prop where
  draws : Draws sch B w (order.map (·.2)) s.shared.inner
  each : ∀ i, ((ofThread i s.out).filter (cnt ep)).map noFlags ++ pend ep (s.pc i) = (ofThread i order).map shown
  nodup : P.Nodup
  mem : ∀ i, i ∈ P ↔ s.pc i = .fetch
  time : ep.isSome → s.shared.t ≤ order.length + P.length
  store : ∀ i n, ep.isSome → s.pc i = .storeT n → n ≤ order.length + P.length
  ended : ∀ c, ep = some c → ∀ i, tells (s.pc i) = true → c.episodeLength ≤ order.length + P.length
  endedOut : ∀ c, ep = some c → ∀ q ∈ s.out, (isEnd q.2 || isLast q.2) = true → c.episodeLength ≤ order.length + P.length

variable {sch ep B w}

/-- A thread moves to another place without asking the scheduler. -/
private theorem Inv.move {s : ESt S V Key} {order : List (Nat × Except Exc (Base.Batch V))} {P : List Nat} (h : Inv sch ep B w s order P) (i : Nat) (x : EPc V)
    (hi : s.pc i ≠ .fetch) (hx : x ≠ .fetch) (hp : pend ep x = pend ep (s.pc i)) (hst : ∀ n, ep.isSome → x = .storeT n → n ≤ order.length + P.length)
    (hs : ∀ c, ep = some c → tells x = true → c.episodeLength ≤ order.length + P.length) :
    Inv sch ep B w { s with pc := setPc s.pc i x } order P := by
  refine ⟨h.draws, fun j => ?_, h.nodup, fun j => ?_, h.time, fun j n he hj => ?_, fun c hc j hj => ?_, h.endedOut⟩
  · rw [← h.each j]
    by_cases e : j = i
    · subst e; simp [setPc, hp]
    · simp [setPc, e]
  · rw [h.mem j]
    by_cases e : j = i
    · subst e; simp [setPc, hi, hx]
    · simp [setPc, e]
  · by_cases e : j = i
    · subst e; exact hst n he (by simpa [setPc] using hj)
    · exact h.store j n he (by simpa [setPc, e] using hj)
  · by_cases e : j = i
    · subst e; exact hs c hc (by simpa [setPc] using hj)
    · exact h.ended c hc j (by simpa [setPc, e] using hj)

/-- A thread is about to ask the scheduler. -/
private theorem Inv.ask {s : ESt S V Key} {order : List (Nat × Except Exc (Base.Batch V))} {P : List Nat} (h : Inv sch ep B w s order P) (i t : Nat)
    (hi : s.pc i ≠ .fetch) (hp : pend ep (s.pc i) = []) (ht : ep.isSome → t ≤ order.length + P.length + 1) :
    Inv sch ep B w { s with shared := { s.shared with t := t }, pc := setPc s.pc i .fetch } order (i :: P) := by
  have hn : i ∉ P := fun hm => hi ((h.mem i).mp hm)
  refine ⟨h.draws, fun j => ?_, List.nodup_cons.mpr ⟨hn, h.nodup⟩, fun j => ?_, fun he => ?_, fun j n he hj => ?_, fun c hc j hj => ?_, fun c hc q hq hs => ?_⟩
  · rw [← h.each j]
    by_cases e : j = i
    · subst e; rw [hp]; simp [setPc, pend]
    · simp [setPc, e]
  · rw [List.mem_cons, h.mem j]
    by_cases e : j = i
    · subst e; simp [setPc]
    · simp [setPc, e]
  · have := ht he
    simp only [List.length_cons]
    omega
  · by_cases e : j = i
    · subst e; simp [setPc] at hj
    · have := h.store j n he (by simpa [setPc, e] using hj)
      simp only [List.length_cons]
      omega
  · by_cases e : j = i
    · subst e; simp [setPc, tells] at hj
    · have := h.ended c hc j (by simpa [setPc, e] using hj)
      simp only [List.length_cons]
      omega
  · have := h.endedOut c hc q hq hs
    simp only [List.length_cons]
    omega

/-- The scheduler answers. -/
private theorem Inv.answer {s : ESt S V Key} {order : List (Nat × Except Exc (Base.Batch V))} {P : List Nat} (h : Inv sch ep B w s order P) (i : Nat)
    (hi : s.pc i = .fetch) (r : Except Exc (Base.Batch V)) (u : S) (hr : sch.getBatch B s.shared.inner = some (r, u)) (x : EPc V)
    (hx : x ≠ .fetch) (hx' : ∀ n, x ≠ .storeT n) (hp : pend ep x = [shown r]) (hs : ∀ c, ep = some c → tells x = false) :
    Inv sch ep B w { s with shared := { s.shared with inner := u }, pc := setPc s.pc i x } (order ++ [(i, r)]) (P.erase i) := by
  have hm : i ∈ P := (h.mem i).mpr hi
  have hlen : (order ++ [(i, r)]).length + (P.erase i).length = order.length + P.length := by
    have := List.length_pos_of_mem hm
    rw [List.length_append, List.length_erase_of_mem hm]
    simp only [List.length_cons, List.length_nil]
    omega
  refine ⟨?_, fun j => ?_, h.nodup.erase i, fun j => ?_, fun he => hlen ▸ h.time he, fun j n he hj => ?_, fun c hc j hj => ?_, fun c hc q hq hs => hlen ▸ h.endedOut c hc q hq hs⟩
  · rw [List.map_append]
    exact h.draws.snoc hr
  · rw [ofThread_append, List.map_append, ← h.each j]
    by_cases e : j = i
    · subst e
      have ex : setPc s.pc j x j = x := by simp [setPc]
      dsimp only
      rw [ofThread_own, hi, ex, hp]
      simp [pend]
    · rw [ofThread_other e]
      simp [setPc, e]
  · rw [h.nodup.mem_erase_iff, h.mem j]
    by_cases e : j = i
    · subst e; simp [setPc, hx]
    · simp [setPc, e]
  · rw [hlen]
    by_cases e : j = i
    · subst e; exact absurd (by simpa [setPc] using hj) (hx' n)
    · exact h.store j n he (by simpa [setPc, e] using hj)
  · rw [hlen]
    by_cases e : j = i
    · subst e
      have hj' : tells x = true := by simpa [setPc] using hj
      rw [hs c hc] at hj'
      simp at hj'
    · exact h.ended c hc j (by simpa [setPc, e] using hj)

private theorem eact_inv (hB : ∀ c, ep = some c → B = c.batchSize) (hE : ep.isSome → ∀ s u, sch.getBatch B s ≠ some (.error .episodeEnd, u))
    {s : ESt S V Key} {order : List (Nat × Except Exc (Base.Batch V))} {P : List Nat} (h : Inv sch ep B w s order P) (a : Act) :
    ∃ order' P', Inv sch ep B w (eact sch ep B s a) order' P' := by
  cases a with
  | call i =>
    simp only [eact]
    cases hp : s.pc i with
    | idle => exact ⟨order, P, h.move i .head (by simp [hp]) (by simp) (by simp [hp, pend]) (by simp) (by simp [tells])⟩
    | _ => exact ⟨order, P, h⟩
  | take i =>
    simp only [eact]
    cases hp : s.pc i with
    | done r =>
      refine ⟨order, P, h.draws, fun j => ?_, h.nodup, fun j => ?_, h.time, fun j n he hj => ?_, fun c hc j hj => ?_, fun c hc q hq hs => ?_⟩
      · rw [← h.each j]
        by_cases e : j = i
        · subst e
          simp only [ofThread_append, ofThread_own, List.filter_append, List.map_append, setPc, if_true, pend, List.append_nil, hp, List.append_cancel_left_eq]
          cases hc : cnt ep r <;> simp [hc]
        · simp [ofThread_append, ofThread_other e, setPc, e]
      · rw [h.mem j]
        by_cases e : j = i
        · subst e; simp [setPc, hp]
        · simp [setPc, e]
      · by_cases e : j = i
        · subst e; simp [setPc] at hj
        · exact h.store j n he (by simpa [setPc, e] using hj)
      · by_cases e : j = i
        · subst e; simp [setPc, tells] at hj
        · exact h.ended c hc j (by simpa [setPc, e] using hj)
      · rcases List.mem_append.mp hq with hq | hq
        · exact h.endedOut c hc q hq hs
        · simp only [List.mem_singleton] at hq
          subst hq
          exact h.ended c hc i (by rw [hp]; exact hs)
    | _ => exact ⟨order, P, h⟩
  | step i =>
    simp only [eact]
    cases hp : s.pc i with
    | idle => exact ⟨order, P, h.move i .idle (by simp [hp]) (by simp) (by simp [hp]) (by simp) (by simp [tells])⟩
    | head =>
      simp only [estep]
      cases he : ep with
      | none =>
        subst he
        exact ⟨order, i :: P, h.ask i s.shared.t (by simp [hp]) (by simp [hp, pend]) (by simp)⟩
      | some c =>
        subst he
        dsimp only
        split
        · rename_i h0
          refine ⟨order, P, h.move i _ (by simp [hp]) (by simp) (by simp [hp, pend, cnt, isEnd]) (by simp) ?_⟩
          intro c' hc' _
          have := h.time rfl
          simp only [Option.some.injEq] at hc'
          subst hc'
          unfold Episodic.stepsRemaining at h0
          omega
        · exact ⟨order, P, h.move i _ (by simp [hp]) (by simp) (by simp [hp, pend]) (by simp) (by simp [tells])⟩
    | test =>
      simp only [estep]
      cases he : ep with
      | none =>
        subst he
        exact ⟨order, i :: P, h.ask i s.shared.t (by simp [hp]) (by simp [hp, pend]) (by simp)⟩
      | some c =>
        subst he
        dsimp only
        rw [if_neg (by rw [hB c rfl]; simp)]
        split
        · rename_i h0
          refine ⟨order, P, h.move i _ (by simp [hp]) (by simp) (by simp [hp, pend, cnt, isEnd]) (by simp) ?_⟩
          intro c' hc' _
          have := h.time rfl
          simp only [Option.some.injEq] at hc'
          subst hc'
          omega
        · exact ⟨order, P, h.move i _ (by simp [hp]) (by simp) (by simp [hp, pend]) (by simp) (by simp [tells])⟩
    | readT =>
      refine ⟨order, P, h.move i (.storeT s.shared.t) (by simp [hp]) (by simp) (by simp [hp, pend]) ?_ (by simp [tells])⟩
      intro n he hn
      simp only [EPc.storeT.injEq] at hn
      subst hn
      exact h.time he
    | storeT n =>
      refine ⟨order, i :: P, h.ask i (n + 1) (by simp [hp]) (by simp [hp, pend]) ?_⟩
      intro he
      have := h.store i n he hp
      omega
    | fetch =>
      simp only [estep]
      cases hr : sch.getBatch B s.shared.inner with
      | none =>
        refine ⟨order, P, ?_⟩
        have : setPc s.pc i .fetch = s.pc := by
          funext j
          unfold setPc
          split
          · rename_i e; rw [e, hp]
          · rfl
        dsimp only
        rw [this]
        exact h
      | some q =>
        obtain ⟨r, u⟩ := q
        cases r with
        | error e =>
          have hne : ep.isSome → isEnd (.error e : Except Exc (RealBatch V)) = false := by
            intro he
            cases e <;> first | rfl | exact absurd hr (hE he _ _)
          refine ⟨_, _, h.answer i hp (.error e) u hr (.done (.error e)) (by simp) (by simp) ?_ ?_⟩
          · cases he : ep with
            | none => simp [pend, cnt, shown, noFlags]
            | some c => simp [pend, cnt, shown, noFlags, hne (by simp [he])]
          · intro c hc
            simp [tells, hne (by simp [hc]), isLast]
        | ok b => exact ⟨_, _, h.answer i hp (.ok b) u hr (.flags (realOf b)) (by simp) (by simp) rfl (fun _ _ => rfl)⟩
    | flags b =>
      simp only [estep]
      refine ⟨order, P, h.move i _ (by simp [hp]) (by simp) (by simp [hp, pend, cnt, isEnd, noFlags]) (by simp) ?_⟩
      intro c hc hs
      subst hc
      have := h.time rfl
      simp only [tells, isEnd, isLast, Option.map_some, Option.getD_some, Bool.false_or, List.contains_replicate] at hs
      simp only [Episodic.stepsRemaining, Bool.and_eq_true, beq_iff_eq] at hs
      have h2 := of_decide_eq_true hs.1.symm
      omega
    | done r =>
      simp only [estep]
      refine ⟨order, P, h.move i _ (by simp [hp]) (by simp) (by simp [hp]) (by simp) ?_⟩
      intro c hc hs
      exact h.ended c hc i (by rw [hp]; exact hs)

private theorem erun_inv (hB : ∀ c, ep = some c → B = c.batchSize) (hE : ep.isSome → ∀ s u, sch.getBatch B s ≠ some (.error .episodeEnd, u)) (as : List Act)
    {s : ESt S V Key} {order : List (Nat × Except Exc (Base.Batch V))} {P : List Nat} (h : Inv sch ep B w s order P) :
    ∃ order' P', Inv sch ep B w (erun sch ep B as s) order' P' := by
  induction as generalizing s order P with
  | nil => exact ⟨order, P, h⟩
  | cons a as ih =>
    obtain ⟨o, p, h'⟩ := eact_inv hB hE h a
    exact ih h'

private theorem init_inv (e : Episodic.St S Key) (ht : ep.isSome → e.t = 0) : Inv (Key := Key) sch ep B e.inner (einit e) [] [] :=
  ⟨.nil _, fun i => rfl, .nil, fun i => by simp [einit], fun he => by simp [einit, ht he], fun i n _ h => by simp [einit] at h,
    fun c _ i h => by simp [einit, tells] at h, fun c _ q h => by simp [einit] at h⟩

end inv

private theorem length_of_threads {A C : Type} (l : List (Nat × A)) (m : List (Nat × C)) (h : ∀ i, (ofThread i l).length = (ofThread i m).length) : l.length = m.length := by
  have : (l.map (·.1)).Perm (m.map (·.1)) := by
    rw [List.perm_iff_count]
    intro i
    have key : ∀ {X : Type} (k : List (Nat × X)), (k.map (·.1)).count i = (ofThread i k).length := by
      intro X k
      induction k with
      | nil => rfl
      | cons q k ih =>
        rw [List.map_cons, List.count_cons, ih]
        unfold ofThread
        rw [List.filter_cons]
        by_cases e : q.1 = i
        · simp [e]
        · simp [e]
    rw [key, key, h i]
  simpa using this.length_eq

private theorem noFlags_shown (r : Except Exc (Base.Batch V)) : noFlags (shown r) = shown r := by cases r <;> rfl

private theorem plain_run {sch : Sched S (Base.Batch V)} {B : Nat} {s t : S} {rs : List (Except Exc (Base.Batch V))} (h : Draws sch B s rs t) :
    realRun (ofPlain sch) B rs.length s = some (rs.map shown, t) := by
  induction h with
  | nil s => rfl
  | @cons s r t rs u h1 _ ih =>
    have e : realNext (ofPlain sch) B s = some (shown r, t) := by
      unfold realNext realGetNext
      rw [show episodeOver (ofPlain sch) s = false from rfl, show (ofPlain sch).getBatch B s = some (r, t) from h1]
      cases r <;> rfl
    rw [List.length_cons, realRun, e]
    dsimp only
    rw [ih]
    rfl

/-- Without episodes the flags are never set. -/
private theorem plain_flags (sch : Sched S (Base.Batch V)) (B : Nat) (as : List Act) (s : ESt S V Key)
    (h : (∀ q ∈ s.out, noFlags q.2 = q.2) ∧ ∀ i r, s.pc i = .done r → noFlags r = r) :
    ∀ q ∈ (erun sch none B as s).out, noFlags q.2 = q.2 := by
  induction as generalizing s with
  | nil => exact h.1
  | cons a as ih =>
    refine ih _ ?_
    have set : ∀ (i : Nat) (x : EPc V), (∀ r, x = .done r → noFlags r = r) →
        (∀ q ∈ s.out, noFlags q.2 = q.2) ∧ ∀ j r, setPc s.pc i x j = .done r → noFlags r = r := by
      intro i x hx
      refine ⟨h.1, fun j r hj => ?_⟩
      by_cases e : j = i
      · exact hx r (by simpa [setPc, e] using hj)
      · exact h.2 j r (by simpa [setPc, e] using hj)
    cases a with
    | call i =>
      simp only [eact]
      cases hp : s.pc i with
      | idle => exact set i .head (by simp)
      | _ => exact h
    | take i =>
      simp only [eact]
      cases hp : s.pc i with
      | done r =>
        refine ⟨fun q hq => ?_, (set i .idle (by simp)).2⟩
        rcases List.mem_append.mp hq with hq | hq
        · exact h.1 q hq
        · simp only [List.mem_singleton] at hq
          subst hq
          exact h.2 i r hp
      | _ => exact h
    | step i =>
      simp only [eact]
      refine set i _ ?_
      intro r hr
      cases hp : s.pc i with
      | done r' =>
        rw [hp] at hr
        simp only [estep, EPc.done.injEq] at hr
        exact hr ▸ h.2 i r' hp
      | flags b =>
        rw [hp] at hr
        simp only [estep, EPc.done.injEq] at hr
        subst hr
        rfl
      | fetch =>
        rw [hp] at hr
        simp only [estep] at hr
        split at hr
        · simp at hr
        · simp only [EPc.done.injEq] at hr
          subst hr
          rfl
        · simp at hr
      | _ => rw [hp] at hr; simp [estep] at hr

/-- **C181** (schedulers without episodes). Whatever the threads do, the batches are those one thread would have got, in some order in which the calls of each thread are in
their own order; none is lost, none is delivered twice, and the scheduler is left as one thread would have left it. -/
theorem C181_plain (sch : Sched S (Base.Batch V)) (B : Nat) (e : Episodic.St S Key) (schedule : List Act)
    (hidle : ∀ i, (erun sch none B schedule (einit e)).pc i = .idle) :
    ∃ order : List (Nat × Except Exc (RealBatch V)),
      realRun (ofPlain sch) B order.length e.inner = some (order.map (·.2), (erun sch none B schedule (einit (V := V) e)).shared.inner) ∧
      ∀ i, ofThread i order = ofThread i (erun sch none B schedule (einit e)).out := by
  obtain ⟨order, P, h⟩ := erun_inv (sch := sch) (ep := none) (B := B) (by simp) (by simp) schedule
    (init_inv (sch := sch) (ep := none) (B := B) e (by simp))
  refine ⟨order.map (fun q => (q.1, shown q.2)), ?_, fun i => ?_⟩
  · have := plain_run h.draws
    simpa [Function.comp_def] using this
  · have he := h.each i
    rw [hidle i] at he
    have hf : (ofThread i (erun sch none B schedule (einit e)).out).filter (cnt none) = ofThread i (erun sch none B schedule (einit e)).out :=
      List.filter_eq_self.mpr (fun _ _ => rfl)
    have hm : (ofThread i (erun sch none B schedule (einit e)).out).map noFlags = ofThread i (erun sch none B schedule (einit e)).out := by
      conv_rhs => rw [← List.map_id (ofThread i (erun sch none B schedule (einit e)).out)]
      refine List.map_congr_left fun r hr => ?_
      simp only [ofThread, List.mem_map, List.mem_filter] at hr
      obtain ⟨q, ⟨hq, _⟩, rfl⟩ := hr
      exact plain_flags sch B schedule (einit e) ⟨by simp [einit], by simp [einit]⟩ q hq
    rw [hf, hm] at he
    have : ofThread i (order.map (fun q => (q.1, shown q.2))) = (ofThread i order).map shown := by
      simp [ofThread, List.filter_map, Function.comp_def]
    rw [this, ← he]
    simp [pend]

/-! ## Episodes -/

/-- **C181** (episodes, first part). Whatever the threads do, the calls that do not end with `EpisodeEnd` show what the wrapped scheduler delivers, one answer each, in some order
in which the calls of each thread are in their own order. Missing for the full property: the flags, and that there are `episode_length` of them (`C181_refuted_last_twice`,
`C181_refuted_no_last`, `C181_refuted_too_many`). -/
theorem C181_batches_partial (sch : Sched S (Base.Batch V)) (c : Episodic.Cfg) (hE : ∀ s u, sch.getBatch c.batchSize s ≠ some (.error .episodeEnd, u))
    (e : Episodic.St S Key) (ht : e.t = 0) (schedule : List Act) (hidle : ∀ i, (erun sch (some c) c.batchSize schedule (einit (V := V) e)).pc i = .idle) :
    ∃ order : List (Nat × Except Exc (Base.Batch V)),
      Draws sch c.batchSize e.inner (order.map (·.2)) (erun sch (some c) c.batchSize schedule (einit (V := V) e)).shared.inner ∧
      ∀ i, ((ofThread i (erun sch (some c) c.batchSize schedule (einit e)).out).filter (fun r => !isEnd r)).map noFlags = (ofThread i order).map shown := by
  obtain ⟨order, P, h⟩ := erun_inv (sch := sch) (ep := some c) (B := c.batchSize) (by rintro c' ⟨⟩; rfl) (fun _ => hE) schedule
    (init_inv (sch := sch) (ep := some c) (B := c.batchSize) e (fun _ => ht))
  refine ⟨order, h.draws, fun i => ?_⟩
  have he := h.each i
  rw [hidle i, show pend (some c) (EPc.idle : EPc V) = [] from rfl, List.append_nil] at he
  exact he

/-- **C181** (episodes, second part). `EpisodeEnd` never comes too early, and no batch is called the last one too early: by then at least `episode_length` calls have been
answered by the wrapped scheduler. -/
theorem C181_not_early_partial (sch : Sched S (Base.Batch V)) (c : Episodic.Cfg) (hE : ∀ s u, sch.getBatch c.batchSize s ≠ some (.error .episodeEnd, u))
    (e : Episodic.St S Key) (ht : e.t = 0) (schedule : List Act) (hidle : ∀ i, (erun sch (some c) c.batchSize schedule (einit (V := V) e)).pc i = .idle)
    (i : Nat) (r : Except Exc (RealBatch V)) (hr : (i, r) ∈ (erun sch (some c) c.batchSize schedule (einit e)).out) (hs : isEnd r = true ∨ isLast r = true) :
    c.episodeLength ≤ ((erun sch (some c) c.batchSize schedule (einit (V := V) e)).out.filter (fun q => !isEnd q.2)).length := by
  obtain ⟨order, P, h⟩ := erun_inv (sch := sch) (ep := some c) (B := c.batchSize) (by rintro c' ⟨⟩; rfl) (fun _ => hE) schedule
    (init_inv (sch := sch) (ep := some c) (B := c.batchSize) e (fun _ => ht))
  have hP : P = [] := by
    rw [List.eq_nil_iff_forall_not_mem]
    intro j hj
    have := (h.mem j).mp hj
    rw [hidle j] at this
    simp at this
  have hL := h.endedOut c rfl (i, r) hr (by simpa using hs)
  rw [hP] at hL
  have hlen : ((erun sch (some c) c.batchSize schedule (einit (V := V) e)).out.filter (fun q => !isEnd q.2)).length = order.length := by
    refine length_of_threads _ _ fun j => ?_
    have he := congrArg List.length (h.each j)
    rw [hidle j, show pend (some c) (EPc.idle : EPc V) = [] from rfl, List.append_nil, List.length_map, List.length_map] at he
    rw [← he]
    unfold ofThread
    rw [List.length_map, List.filter_map, List.length_map, List.filter_filter, List.filter_filter]
    congr 2
    funext q
    simp [cnt, Bool.and_comm]
  rw [hlen]
  simpa using hL

/-- **C181** (recovery). `next_episode()` makes up for whatever the threads have done to the counter: it leaves the same state, whatever the counter was. -/
theorem C181_recovers (sch : Sched S (Base.Batch V)) (rng : Episodic.Rng Key) (c : Episodic.Cfg) (e : Episodic.St S Key) (schedule : List Act) (t : Nat) :
    Episodic.nextEpisode sch rng c (erun sch (some c) c.batchSize schedule (einit (V := V) e)).shared =
      Episodic.nextEpisode sch rng c { (erun sch (some c) c.batchSize schedule (einit (V := V) e)).shared with t := t } := by
  unfold Episodic.nextEpisode Episodic.sample
  cases c.starts.isEmpty <;> rfl

/-! ## Calls that do not overlap -/

private def esteps (sch : Sched S (Base.Batch V)) (ep : Option Episodic.Cfg) (B : Nat) : Nat → EPc V × Episodic.St S Key → EPc V × Episodic.St S Key
  | 0, x => x
  | n + 1, x => esteps sch ep B n (estep sch ep B x)

private theorem next_to (sch : Sched S (Base.Batch V)) (rng : Episodic.Rng Key) (c : Episodic.Cfg) (B : Nat) (e t : Episodic.St S Key) (r : Except Exc (RealBatch V))
    (h : realNext (ofEpisodic sch rng c) B e = some (r, t)) : ∃ k, esteps sch (some c) B k (.head, e) = (.done r, t) := by
  unfold realNext at h
  have eo : episodeOver (ofEpisodic sch rng c) e = decide (Episodic.stepsRemaining c e = 0) := rfl
  rw [eo] at h
  by_cases h0 : Episodic.stepsRemaining c e = 0
  · simp only [h0, decide_true, if_true, Option.some.injEq, Prod.mk.injEq] at h
    obtain ⟨rfl, rfl⟩ := h
    exact ⟨1, by simp [esteps, estep, h0]⟩
  · simp only [h0, decide_false, Bool.false_eq_true, if_false] at h
    have e1 : estep sch (some c) B (.head, e) = (.test, e) := by simp [estep, h0]
    unfold realGetNext at h
    rw [show (ofEpisodic sch rng c).getBatch B e = Episodic.getBatch sch c B e from rfl] at h
    unfold Episodic.getBatch at h
    by_cases h1 : B = c.batchSize
    · by_cases h2 : c.episodeLength ≤ e.t
      · simp only [h1, ne_eq, not_true_eq_false, if_false, h2, if_true, Option.some.injEq, Prod.mk.injEq] at h
        obtain ⟨rfl, rfl⟩ := h
        refine ⟨2, ?_⟩
        simp only [esteps, e1]
        simp [estep, h1, h2]
      · simp only [h1, ne_eq, not_true_eq_false, if_false, h2] at h
        have e2 : estep sch (some c) B (.test, e) = (.readT, e) := by simp [estep, h1, h2]
        cases hb : sch.getBatch c.batchSize e.inner with
        | none => rw [hb] at h; simp at h
        | some q =>
          obtain ⟨q, w⟩ := q
          rw [hb] at h
          cases q with
          | error x =>
            simp only [Option.some.injEq, Prod.mk.injEq] at h
            obtain ⟨rfl, rfl⟩ := h
            refine ⟨5, ?_⟩
            simp only [esteps, e1, e2]
            simp [estep, h1, hb]
          | ok b =>
            simp only [Option.some.injEq, Prod.mk.injEq] at h
            obtain ⟨rfl, rfl⟩ := h
            refine ⟨6, ?_⟩
            simp only [esteps, e1, e2]
            simp [estep, h1, hb, realOf, makeDone, ofEpisodic]
    · simp only [h1, ne_eq, not_false_eq_true, if_true, Option.some.injEq, Prod.mk.injEq] at h
      obtain ⟨rfl, rfl⟩ := h
      refine ⟨2, ?_⟩
      simp only [esteps, e1]
      simp [estep, h1]

private theorem erun_append (sch : Sched S (Base.Batch V)) (ep : Option Episodic.Cfg) (B : Nat) (l m : List Act) (s : ESt S V Key) :
    erun sch ep B (l ++ m) s = erun sch ep B m (erun sch ep B l s) := by
  induction l generalizing s with
  | nil => rfl
  | cons a l ih => exact ih _

private theorem setPc_set (pc : Nat → EPc V) (i : Nat) (x y : EPc V) : setPc (setPc pc i x) i y = setPc pc i y := by
  funext j
  unfold setPc
  split <;> rfl

private theorem setPc_at (pc : Nat → EPc V) (i : Nat) (x : EPc V) : setPc pc i x i = x := if_pos rfl

private theorem setPc_idle (i : Nat) : setPc (fun _ => (.idle : EPc V)) i .idle = fun _ => .idle := by
  funext j
  unfold setPc
  split <;> rfl

private theorem erun_steps (sch : Sched S (Base.Batch V)) (ep : Option Episodic.Cfg) (B : Nat) (i k : Nat) (sh : Episodic.St S Key) (pc : Nat → EPc V) (x : EPc V)
    (out : List (Nat × Except Exc (RealBatch V))) :
    erun sch ep B (List.replicate k (.step i)) { shared := sh, pc := setPc pc i x, out := out } =
      { shared := (esteps sch ep B k (x, sh)).2, pc := setPc pc i (esteps sch ep B k (x, sh)).1, out := out } := by
  induction k generalizing x sh with
  | zero => rfl
  | succ k ih =>
    rw [List.replicate_succ]
    show erun sch ep B (List.replicate k (.step i)) (eact sch ep B _ (.step i)) = _
    have e : eact sch ep B { shared := sh, pc := setPc pc i x, out := out } (.step i) =
        { shared := (estep sch ep B (x, sh)).2, pc := setPc pc i (estep sch ep B (x, sh)).1, out := out } := by
      simp only [eact, setPc_at, setPc_set]
    rw [e, ih]
    rfl

/-- **C181**: as long as no two calls overlap, it does not matter which thread makes which call: batches and flags are those of a sampler used by one thread. -/
theorem C181_serial (sch : Sched S (Base.Batch V)) (rng : Episodic.Rng Key) (c : Episodic.Cfg) (B : Nat) (e t : Episodic.St S Key)
    (rs : List (Except Exc (RealBatch V))) (threads : List Nat) (h : realRun (ofEpisodic sch rng c) B threads.length e = some (rs, t)) :
    ∃ ks : List Nat, ks.length = threads.length ∧
      (erun sch (some c) B (List.zipWith callAlone threads ks).flatten (einit e)).out = threads.zip rs ∧
      (erun sch (some c) B (List.zipWith callAlone threads ks).flatten (einit (V := V) e)).shared = t := by
  suffices H : ∀ (threads : List Nat) (rs : List (Except Exc (RealBatch V))) (e : Episodic.St S Key) (out : List (Nat × Except Exc (RealBatch V))),
      realRun (ofEpisodic sch rng c) B threads.length e = some (rs, t) → ∃ ks : List Nat, ks.length = threads.length ∧
      erun sch (some c) B (List.zipWith callAlone threads ks).flatten { shared := e, pc := fun _ => .idle, out := out } =
        { shared := t, pc := fun _ => .idle, out := out ++ threads.zip rs } by
    obtain ⟨ks, e1, e2⟩ := H threads rs e [] h
    refine ⟨ks, e1, ?_, ?_⟩
    · show (erun sch (some c) B _ { shared := e, pc := fun _ => .idle, out := [] }).out = _
      rw [e2]
      rfl
    · show (erun sch (some c) B _ { shared := e, pc := fun _ => .idle, out := [] }).shared = _
      rw [e2]
  clear h
  intro threads
  induction threads with
  | nil =>
    intro rs e out h
    simp only [List.length_nil, realRun, Option.some.injEq, Prod.mk.injEq] at h
    obtain ⟨rfl, rfl⟩ := h
    exact ⟨[], rfl, by simp [erun]⟩
  | cons i threads ih =>
    intro rs e out h
    rw [List.length_cons, realRun] at h
    cases hn : realNext (ofEpisodic sch rng c) B e with
    | none => rw [hn] at h; simp at h
    | some q =>
      obtain ⟨r, e'⟩ := q
      rw [hn] at h
      dsimp only at h
      cases hr : realRun (ofEpisodic sch rng c) B threads.length e' with
      | none => rw [hr] at h; simp at h
      | some p =>
        obtain ⟨rs', t'⟩ := p
        rw [hr] at h
        simp only [Option.some.injEq, Prod.mk.injEq] at h
        obtain ⟨rfl, rfl⟩ := h
        obtain ⟨k, hk⟩ := next_to sch rng c B e e' r hn
        obtain ⟨ks, e1, e2⟩ := ih rs' e' (out ++ [(i, r)]) hr
        refine ⟨k :: ks, by simp [e1], ?_⟩
        have ec : erun sch (some c) B (callAlone i k) { shared := e, pc := fun _ => .idle, out := out } =
            { shared := e', pc := fun _ => .idle, out := out ++ [(i, r)] } := by
          unfold callAlone
          show erun sch (some c) B (List.replicate k (.step i) ++ [.take i]) (eact sch (some c) B _ (.call i)) = _
          have e0 : eact sch (some c) B { shared := e, pc := fun _ => .idle, out := out } (.call i) = { shared := e, pc := setPc (fun _ => .idle) i .head, out := out } := rfl
          rw [e0, erun_append, erun_steps, hk]
          simp only [erun, eact, setPc_at, setPc_set, setPc_idle]
        rw [List.zipWith_cons_cons, List.flatten_cons, erun_append, ec, e2, List.append_assoc]
        rfl

/-! ## Where the threads go wrong -/

/-- A scheduler that counts the batches it delivers. -/
private def demoSch : Sched Nat (Base.Batch Nat) where
  getBatch _ n := some (.ok { flow := ⟨[1], [n]⟩, images1 := none, images2 := none, mask := [true], files := none }, n + 1)
  reset _ := 0
  fileList _ := []
  setFileList _ n := n

private def demoCfg (L : Nat) : Episodic.Cfg := { batchSize := 1, episodeLength := L, dir2files := [], starts := [] }

private def demoStart : Episodic.St Nat Nat := { inner := 0, t := 0, key := 0 }

private def go (i k : Nat) : List Act := List.replicate k (.step i)

/-- What the threads got: the number of the batch and whether it says it is the last one, or nothing. -/
private def seen (s : ESt Nat Nat Nat) : List (Nat × Option (List Nat × Bool)) :=
  s.out.map (fun q => (q.1, match q.2 with | .ok b => some (b.flow.data, isLast q.2) | .error _ => none))

/-- **C181** is false with episodes: two batches of one episode say that they are the last one. The first thread is held up between its batch and the flags. -/
theorem C181_refuted_last_twice :
    seen (erun demoSch (some (demoCfg 2)) 1 ([.call 0] ++ go 0 5 ++ callAlone 1 6 ++ go 0 1 ++ [.take 0]) (einit demoStart)) =
      [(1, some ([1], true)), (0, some ([0], true))] := by decide +kernel

/-- **C181** is false with episodes: no batch says it is the last one, although the episode is over: the next call raises `EpisodeEnd`. Both threads have passed the test
when the counter is at the last step; then it goes one too far. -/
theorem C181_refuted_no_last :
    seen (erun demoSch (some (demoCfg 2)) 1 (callAlone 0 6 ++ [.call 0, .call 1] ++ go 0 2 ++ go 1 2 ++ go 0 2 ++ go 1 2 ++ go 0 2 ++ go 1 2 ++ [.take 0, .take 1] ++
        callAlone 0 2) (einit demoStart)) =
      [(0, some ([0], false)), (0, some ([1], false)), (1, some ([2], false)), (0, none)] ∧
    (erun demoSch (some (demoCfg 2)) 1 (callAlone 0 6 ++ [.call 0, .call 1] ++ go 0 2 ++ go 1 2 ++ go 0 2 ++ go 1 2 ++ go 0 2 ++ go 1 2 ++ [.take 0, .take 1] ++
        callAlone 0 2) (einit demoStart)).out.getLast?.map (fun q => isEnd q.2) = some true := by
  decide +kernel

section many
variable (L : Nat)

private theorem many_first (k : Nat) : ∀ (t inner : Nat) (out : List (Nat × Except Exc (RealBatch Nat))), t + k ≤ L → (∀ q ∈ out, isEnd q.2 = false) →
    ∃ out', erun demoSch (some (demoCfg L)) 1 (List.replicate k (callAlone 0 6)).flatten { shared := { inner := inner, t := t, key := 0 }, pc := fun _ => .idle, out := out } =
      ({ shared := { inner := inner + k, t := t + k, key := 0 }, pc := fun _ => .idle, out := out' } : ESt Nat Nat Nat) ∧
      out'.length = out.length + k ∧ ∀ q ∈ out', isEnd q.2 = false := by
  induction k with
  | zero => exact fun t inner out _ h => ⟨out, rfl, rfl, h⟩
  | succ k ih =>
    intro t inner out hk h
    rw [List.replicate_succ, List.flatten_cons, erun_append]
    have e1 : ∀ sh : Episodic.St Nat Nat, sh.t < L → ∃ b, esteps demoSch (some (demoCfg L)) 1 6 (.head, sh) =
        (.done (.ok b), { sh with inner := sh.inner + 1, t := sh.t + 1 }) := by
      intro sh hs
      have a1 : estep demoSch (some (demoCfg L)) 1 (.head, sh) = (.test, sh) := by
        have : ¬ Episodic.stepsRemaining (demoCfg L) sh = 0 := by simp only [Episodic.stepsRemaining, demoCfg]; omega
        simp [estep, this]
      have a2 : estep demoSch (some (demoCfg L)) 1 (.test, sh) = (.readT, sh) := by
        have : ¬ L ≤ sh.t := by omega
        simp [estep, demoCfg, this]
      have a3 : ∃ b, esteps demoSch (some (demoCfg L)) 1 4 (.readT, sh) = (.done (.ok b), { sh with inner := sh.inner + 1, t := sh.t + 1 }) := ⟨_, rfl⟩
      obtain ⟨b, hb⟩ := a3
      refine ⟨b, ?_⟩
      rw [esteps, a1, esteps, a2, hb]
    obtain ⟨b, hb⟩ := e1 { inner := inner, t := t, key := 0 } (by show t < L; omega)
    have ec : erun demoSch (some (demoCfg L)) 1 (callAlone 0 6) { shared := { inner := inner, t := t, key := 0 }, pc := fun _ => .idle, out := out } =
        { shared := { inner := inner + 1, t := t + 1, key := 0 }, pc := fun _ => .idle, out := out ++ [(0, .ok b)] } := by
      unfold callAlone
      show erun demoSch (some (demoCfg L)) 1 (List.replicate 6 (.step 0) ++ [.take 0]) { shared := _, pc := setPc (fun _ => .idle) 0 .head, out := out } = _
      rw [erun_append, erun_steps, hb]
      simp only [erun, eact, setPc_at, setPc_set, setPc_idle]
    rw [ec]
    obtain ⟨out', e2, e3, e4⟩ := ih (t + 1) (inner + 1) (out ++ [(0, .ok b)]) (by omega) (by
      intro q hq
      rcases List.mem_append.mp hq with hq | hq
      · exact h q hq
      · simp only [List.mem_singleton] at hq
        subst hq
        rfl)
    refine ⟨out', ?_, ?_, e4⟩
    · rw [e2]
      congr 2 <;> omega
    · rw [e3]
      simp only [List.length_append, List.length_cons, List.length_nil]
      omega

/-- The first `n` threads have read the counter. -/
private def readers (m n t : Nat) : Nat → EPc Nat := fun j => if m ≤ j ∧ j < n then .storeT t else .idle

private theorem many_read (t inner : Nat) (ht : t < L) (out : List (Nat × Except Exc (RealBatch Nat))) (n : Nat) :
    erun demoSch (some (demoCfg L)) 1 ((List.range n).flatMap (fun i => .call i :: List.replicate 3 (.step i)))
        { shared := { inner := inner, t := t, key := 0 }, pc := fun _ => .idle, out := out } =
      ({ shared := { inner := inner, t := t, key := 0 }, pc := readers 0 n t, out := out } : ESt Nat Nat Nat) := by
  induction n with
  | zero =>
    have : readers 0 0 t = fun _ => .idle := by funext j; simp [readers]
    rw [this]
    rfl
  | succ n ih =>
    rw [List.range_succ, List.flatMap_append, erun_append, ih]
    simp only [List.flatMap_cons, List.flatMap_nil, List.append_nil]
    have hidle : readers 0 n t n = .idle := by simp [readers]
    show erun demoSch (some (demoCfg L)) 1 (List.replicate 3 (.step n)) (eact demoSch (some (demoCfg L)) 1 _ (.call n)) = _
    have e0 : eact demoSch (some (demoCfg L)) 1 { shared := { inner := inner, t := t, key := 0 }, pc := readers 0 n t, out := out } (.call n) =
        ({ shared := { inner := inner, t := t, key := 0 }, pc := setPc (readers 0 n t) n .head, out := out } : ESt Nat Nat Nat) := by
      simp only [eact, hidle]
    rw [e0, erun_steps]
    have e1 : esteps demoSch (some (demoCfg L)) 1 3 (.head, ({ inner := inner, t := t, key := 0 } : Episodic.St Nat Nat)) =
        (.storeT t, { inner := inner, t := t, key := 0 }) := by
      have h1 : ¬ Episodic.stepsRemaining (demoCfg L) ({ inner := inner, t := t, key := 0 } : Episodic.St Nat Nat) = 0 := by
        simp only [Episodic.stepsRemaining, demoCfg]; omega
      have h2 : ¬ L ≤ t := by omega
      have a1 : estep demoSch (some (demoCfg L)) 1 (.head, ({ inner := inner, t := t, key := 0 } : Episodic.St Nat Nat)) = (.test, { inner := inner, t := t, key := 0 }) := by
        simp only [estep, if_neg h1]
      have a2 : estep demoSch (some (demoCfg L)) 1 (.test, ({ inner := inner, t := t, key := 0 } : Episodic.St Nat Nat)) = (.readT, { inner := inner, t := t, key := 0 }) := by
        simp [estep, demoCfg, h2]
      simp only [esteps, a1, a2]
      rfl
    rw [e1]
    congr 1
    funext j
    by_cases hj : j = n
    · simp [setPc, readers, hj]
    · have : j < n + 1 ↔ j < n := by omega
      simp [setPc, readers, hj, this]

private theorem many_count (t n : Nat) : ∀ (k m inner t0 : Nat) (out : List (Nat × Except Exc (RealBatch Nat))), 0 < k → m + k = n → (∀ q ∈ out, isEnd q.2 = false) →
    ∃ (sched : List Act) (out' : List (Nat × Except Exc (RealBatch Nat))), erun demoSch (some (demoCfg L)) 1 sched
        { shared := { inner := inner, t := t0, key := 0 }, pc := readers m n t, out := out } =
      ({ shared := { inner := inner + k, t := t + 1, key := 0 }, pc := fun _ => .idle, out := out' } : ESt Nat Nat Nat) ∧
      out'.length = out.length + k ∧ ∀ q ∈ out', isEnd q.2 = false := by
  intro k
  induction k with
  | zero => intro m inner t0 out h; omega
  | succ k ih =>
    intro m inner t0 out _ hm h
    have hpc : readers m n t = setPc (readers (m + 1) n t) m (.storeT t) := by
      funext j
      by_cases hj : j = m
      · subst hj
        have : j < n := by omega
        simp [setPc, readers, this]
      · have : m + 1 ≤ j ↔ m ≤ j := by omega
        simp [setPc, readers, hj, this]
    have hpc' : setPc (readers (m + 1) n t) m .idle = readers (m + 1) n t := by
      funext j
      by_cases hj : j = m
      · subst hj
        simp [setPc, readers]
      · simp [setPc, hj]
    obtain ⟨b, hb⟩ : ∃ b, esteps demoSch (some (demoCfg L)) 1 3 (.storeT t, ({ inner := inner, t := t0, key := 0 } : Episodic.St Nat Nat)) =
        (.done (.ok b), { inner := inner + 1, t := t + 1, key := 0 }) := ⟨_, rfl⟩
    have ec : erun demoSch (some (demoCfg L)) 1 (List.replicate 3 (.step m) ++ [.take m]) { shared := { inner := inner, t := t0, key := 0 }, pc := readers m n t, out := out } =
        ({ shared := { inner := inner + 1, t := t + 1, key := 0 }, pc := readers (m + 1) n t, out := out ++ [(m, .ok b)] } : ESt Nat Nat Nat) := by
      rw [hpc, erun_append, erun_steps, hb]
      simp only [erun, eact, setPc_at, setPc_set, hpc']
    have ho : ∀ q ∈ out ++ [(m, .ok b)], isEnd q.2 = false := by
      intro q hq
      rcases List.mem_append.mp hq with hq | hq
      · exact h q hq
      · simp only [List.mem_singleton] at hq
        subst hq
        rfl
    rcases Nat.eq_zero_or_pos k with rfl | hk
    · refine ⟨_, _, ec.trans ?_, by simp, ho⟩
      congr 1
      funext j
      have : ¬ (m + 1 ≤ j ∧ j < n) := by omega
      simp [readers, this]
    · obtain ⟨sched, out', e1, e2, e3⟩ := ih (m + 1) (inner + 1) (t + 1) (out ++ [(m, .ok b)]) hk (by omega) ho
      refine ⟨(List.replicate 3 (.step m) ++ [.take m]) ++ sched, out', ?_, ?_, e3⟩
      · rw [erun_append, ec, e1]
        congr 2
        omega
      · rw [e2]
        simp only [List.length_append, List.length_cons, List.length_nil]
        omega

end many

/-- **C181** is false with episodes: an episode of any length can have as many further batches as there are other threads: all of them pass the test before the first counts. -/
theorem C181_refuted_too_many (L n : Nat) (hL : 0 < L) (hn : 0 < n) :
    ∃ schedule : List Act, (∀ i, (erun demoSch (some (demoCfg L)) 1 schedule (einit demoStart)).pc i = .idle) ∧
      ((erun demoSch (some (demoCfg L)) 1 schedule (einit demoStart)).out.filter (fun q => !isEnd q.2)).length = L - 1 + n ∧
      (erun demoSch (some (demoCfg L)) 1 schedule (einit demoStart)).shared.t = L := by
  obtain ⟨out1, a1, a2, a3⟩ := many_first L (L - 1) 0 0 [] (by omega) (by simp)
  obtain ⟨sched, out2, b1, b2, b3⟩ := many_count L (L - 1) n n 0 (L - 1) (L - 1) out1 hn (by omega) a3
  have hrun : erun demoSch (some (demoCfg L)) 1 ((List.replicate (L - 1) (callAlone 0 6)).flatten ++
      ((List.range n).flatMap (fun i => .call i :: List.replicate 3 (.step i)) ++ sched)) (einit demoStart) =
      { shared := { inner := L - 1 + n, t := L - 1 + 1, key := 0 }, pc := fun _ => .idle, out := out2 } := by
    rw [erun_append, show (einit demoStart : ESt Nat Nat Nat) = { shared := { inner := 0, t := 0, key := 0 }, pc := fun _ => .idle, out := [] } from rfl, a1,
      Nat.zero_add, erun_append, many_read L (L - 1) (L - 1) (by omega), b1]
  refine ⟨_, fun i => by rw [hrun], ?_, ?_⟩
  · rw [hrun]
    dsimp only
    rw [List.filter_eq_self.mpr (by intro q hq; simp [b3 q hq]), b2, a2]
    simp
  · rw [hrun]
    dsimp only
    omega

/-- The hypotheses of the theorems on episodes: two threads, both in their call at the same time, an episode of length 2, and a third call that ends with `EpisodeEnd`. -/
example : ∃ schedule : List Act, (∀ i, (erun demoSch (some (demoCfg 2)) 1 schedule (einit demoStart)).pc i = .idle) ∧
    (∀ s u, demoSch.getBatch (demoCfg 2).batchSize s ≠ some (.error .episodeEnd, u)) ∧ demoStart.t = 0 ∧
    seen (erun demoSch (some (demoCfg 2)) 1 schedule (einit demoStart)) = [(1, some ([0], false)), (0, some ([1], true)), (1, none)] := by
  refine ⟨[.call 0, .call 1] ++ go 1 6 ++ [.take 1] ++ go 0 6 ++ [.take 0] ++ callAlone 1 1, ?_, by simp [demoSch], rfl, by decide +kernel⟩
  intro i
  rcases i with _ | _ | i <;> rfl

/-- `C181_plain`: two threads whose calls overlap share the batches of a plain scheduler; the batch drawn first is taken last. -/
example : seen (erun demoSch none 1 ([.call 0, .call 1] ++ go 0 2 ++ go 1 3 ++ [.take 1] ++ go 0 1 ++ [.take 0] ++ callAlone 1 3) (einit demoStart)) =
    [(1, some ([1], false)), (0, some ([0], false)), (1, some ([2], false))] := by decide +kernel

end Verif.RacingReal
