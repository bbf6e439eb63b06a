import Verif.Spec.RacingSampler
import Verif.Props.InterruptSampler
/-!
# C180: threads that share a sampler
-/

namespace Verif.RacingSampler
open Verif Sampler
open Verif.InterruptSampler (advanced)

variable {S F O I : Type}

/-! ## Calls that do not overlap -/

private def ssteps (sch : ISched S (FlowBatch F)) (g : Gen F O I) (cfg : Cfg) : Nat → SPc F O I × Sh S F O → SPc F O I × Sh S F O
  | 0, x => x
  | n + 1, x => ssteps sch g cfg n (sstep sch g cfg x)

private theorem ssteps_add (sch : ISched S (FlowBatch F)) (g : Gen F O I) (cfg : Cfg) (m n : Nat) (x : SPc F O I × Sh S F O) :
    ssteps sch g cfg (m + n) x = ssteps sch g cfg n (ssteps sch g cfg m x) := by
  induction m generalizing x with
  | zero => rw [Nat.zero_add]; rfl
  | succ m ih => rw [Nat.succ_add]; exact ih _

private theorem reaches_trans {sch : ISched S (FlowBatch F)} {g : Gen F O I} {cfg : Cfg} {x y z : SPc F O I × Sh S F O} (h1 : ∃ m, ssteps sch g cfg m x = y)
    (h2 : ∃ m, ssteps sch g cfg m y = z) : ∃ m, ssteps sch g cfg m x = z := by
  obtain ⟨m, hm⟩ := h1
  obtain ⟨n, hn⟩ := h2
  exact ⟨m + n, by rw [ssteps_add, hm, hn]⟩

/-- The flags are added last. -/
private def flagged (sch : ISched S (FlowBatch F)) (cfg : Cfg) (q : Except Exc (OutBatch O I) × St S F O) : Except Exc (OutBatch O I) :=
  match q.1 with
  | .ok b => .ok { b with done := makeDone sch cfg.batchSize q.2.sched }
  | .error e => .error e

private theorem produce_to (sch : ISched S (FlowBatch F)) (g : Gen F O I) (cfg : Cfg) (s : Sh S F O) (fl : List F) (hc : s.st.cur = some fl)
    (ho : fl.length % cfg.ndevices = 0 → s.hasOut = true) :
    ∃ m, ssteps sch g cfg m (.readKey, s) = (.done (flagged sch cfg (produce g cfg fl s.st)), { s with st := (produce g cfg fl s.st).2 }) := by
  refine reaches_trans (y := (.make s.st.rng.split2.2, { s with st := { s.st with rng := s.st.rng.split2.1 } })) ⟨2, rfl⟩ ?_
  by_cases hd : fl.length % cfg.ndevices = 0
  · refine ⟨7, ?_⟩
    have e1 : sstep sch g cfg (.make s.st.rng.split2.2, { s with st := { s.st with rng := s.st.rng.split2.1 } }) =
        (.readOut (images g cfg s.st.rng.split2.2 fl), { s with st := { s.st with rng := s.st.rng.split2.1 } }) := by
      simp [sstep, hc, hd]
    have e2 : sstep sch g cfg (.readOut (images g cfg s.st.rng.split2.2 fl), { s with st := { s.st with rng := s.st.rng.split2.1 } }) =
        (.readMask (images g cfg s.st.rng.split2.2 fl) s.st.outFlows, { s with st := { s.st with rng := s.st.rng.split2.1 } }) := by
      simp [sstep, ho hd]
    simp only [ssteps]
    rw [e1, e2]
    simp [sstep, produce, hd, flagged]
  · refine ⟨1, ?_⟩
    simp [ssteps, sstep, hc, hd, produce, flagged]

private def Inv (cfg : Cfg) (s : Sh S F O) : Prop := ∀ fl, s.st.cur = some fl → fl.length % cfg.ndevices = 0 → s.hasOut = true

private theorem fetch_to (sch : ISched S (FlowBatch F)) (g : Gen F O I) (cfg : Cfg) (s : Sh S F O) (hI : Inv cfg s) (q : Except Exc (OutBatch O I) × St S F O)
    (h : getNext.fetch sch g cfg s.st = some q) :
    ∃ h', (∃ m, ssteps sch g cfg m (.zero, s) = (.done (flagged sch cfg q), { st := q.2, hasOut := h' })) ∧ Inv cfg { st := q.2, hasOut := h' } := by
  unfold getNext.fetch at h
  cases hf : sch.getBatch cfg.ffpb s.st.sched with
  | none => rw [hf] at h; simp at h
  | some x =>
    obtain ⟨x, sc⟩ := x
    rw [hf] at h
    cases x with
    | error e =>
      simp only [Option.some.injEq] at h
      subst h
      refine ⟨s.hasOut, ⟨2, ?_⟩, hI⟩
      have e1 : sstep sch g cfg (.fetch, { s with st := { s.st with generated := 0 } }) =
          (.done (.error e), { s with st := { s.st with generated := 0, sched := sc } }) := by simp [sstep, hf]
      exact e1
    | ok b =>
      dsimp only at h
      have e1 : sstep sch g cfg (.fetch, { s with st := { s.st with generated := 0 } }) =
          (.setFlows b, { s with st := { s.st with generated := 0, sched := sc } }) := by simp [sstep, hf]
      have e4 : ssteps sch g cfg 5 (.zero, s) =
          (.readLaid, { s with st := { s.st with generated := 0, sched := sc, cur := some b.flows, mask := b.mask, files := b.files } }) := by
        show ssteps sch g cfg 3 (sstep sch g cfg (.fetch, { s with st := { s.st with generated := 0 } })) = _
        rw [e1]
        rfl
      by_cases hd : b.flows.length % cfg.ndevices = 0
      · simp only [ne_eq, hd, not_true_eq_false, if_false, Option.some.injEq] at h
        have hlen : (adaptAll g cfg b.flows).2.length % cfg.ndevices = 0 := by simpa [adaptAll] using hd
        have e5 : ssteps sch g cfg 5 (.readLaid, { s with st := { s.st with generated := 0, sched := sc, cur := some b.flows, mask := b.mask, files := b.files } }) =
            (.readKey, { st := { s.st with generated := 0, sched := sc, mask := b.mask, files := b.files, outFlows := (adaptAll g cfg b.flows).1,
                                           cur := some (adaptAll g cfg b.flows).2 }, hasOut := true }) := by
          simp [ssteps, sstep, hd]
        obtain ⟨m, hm⟩ := produce_to sch g cfg
          { st := { s.st with generated := 0, sched := sc, mask := b.mask, files := b.files, outFlows := (adaptAll g cfg b.flows).1,
                              cur := some (adaptAll g cfg b.flows).2 }, hasOut := true } (adaptAll g cfg b.flows).2 rfl (fun _ => rfl)
        subst h
        exact ⟨true, reaches_trans ⟨5, e4⟩ (reaches_trans ⟨5, e5⟩ ⟨m, hm⟩), fun _ _ _ => rfl⟩
      · simp only [ne_eq, hd, not_false_eq_true, if_true, Option.some.injEq] at h
        subst h
        refine ⟨s.hasOut, reaches_trans ⟨5, e4⟩ ⟨1, ?_⟩, ?_⟩
        · simp [ssteps, sstep, hd, flagged]
        · intro fl h1 h2
          simp only [Option.some.injEq] at h1
          subst h1
          exact absurd h2 hd

private theorem next_to (sch : ISched S (FlowBatch F)) (g : Gen F O I) (cfg : Cfg) (s : Sh S F O) (hI : Inv cfg s) (r : Except Exc (OutBatch O I)) (t : St S F O)
    (h : Sampler.next sch g cfg s.st = some (r, t)) :
    ∃ h', (∃ m, ssteps sch g cfg m (.head, s) = (.done r, { st := t, hasOut := h' })) ∧ Inv cfg { st := t, hasOut := h' } := by
  unfold Sampler.next at h
  cases he : episodeOver sch s.st.sched with
  | true =>
    rw [he] at h
    simp only [if_true, Option.some.injEq, Prod.mk.injEq] at h
    obtain ⟨rfl, rfl⟩ := h
    exact ⟨s.hasOut, ⟨1, by simp [ssteps, sstep, he]⟩, hI⟩
  | false =>
    rw [he] at h
    simp only [Bool.false_eq_true, if_false] at h
    have e1 : ssteps sch g cfg 1 (.head, s) = (.testNone, s) := by simp [ssteps, sstep, he]
    have key : ∀ q, getNext sch g cfg s.st = some q →
        ∃ h', (∃ m, ssteps sch g cfg m (.testNone, s) = (.done (flagged sch cfg q), { st := q.2, hasOut := h' })) ∧ Inv cfg { st := q.2, hasOut := h' } := by
      intro q hq
      unfold getNext at hq
      cases hc : s.st.cur with
      | none =>
        rw [hc] at hq
        obtain ⟨h', h1, h2⟩ := fetch_to sch g cfg s hI q hq
        exact ⟨h', reaches_trans ⟨1, by simp [ssteps, sstep, hc]⟩ h1, h2⟩
      | some fl =>
        rw [hc] at hq
        dsimp only at hq
        by_cases hg : s.st.generated < cfg.bpfb
        · rw [if_pos hg] at hq
          simp only [Option.some.injEq] at hq
          subst hq
          refine ⟨s.hasOut, reaches_trans ⟨2, ?_⟩ (produce_to sch g cfg s fl hc (hI fl hc)), ?_⟩
          · have : ¬ cfg.bpfb ≤ s.st.generated := by omega
            simp [ssteps, sstep, hc, this]
          · intro fl' h1 h2
            refine hI fl hc ?_
            have : (produce g cfg fl s.st).2.cur = s.st.cur := by unfold produce; dsimp only; split <;> rfl
            rw [this, hc] at h1
            simp only [Option.some.injEq] at h1
            rw [h1]
            exact h2
        · rw [if_neg hg] at hq
          obtain ⟨h', h1, h2⟩ := fetch_to sch g cfg s hI q hq
          refine ⟨h', reaches_trans ⟨2, ?_⟩ h1, h2⟩
          have : cfg.bpfb ≤ s.st.generated := by omega
          simp [ssteps, sstep, hc, this]
    cases hq : getNext sch g cfg s.st with
    | none => rw [hq] at h; simp at h
    | some q =>
      obtain ⟨h', h1, h2⟩ := key q hq
      rw [hq] at h
      obtain ⟨q1, q2⟩ := q
      cases q1 with
      | error e =>
        simp only [Option.some.injEq, Prod.mk.injEq] at h
        obtain ⟨rfl, rfl⟩ := h
        exact ⟨h', reaches_trans ⟨1, e1⟩ h1, h2⟩
      | ok b =>
        simp only [Option.some.injEq, Prod.mk.injEq] at h
        obtain ⟨rfl, rfl⟩ := h
        exact ⟨h', reaches_trans ⟨1, e1⟩ h1, h2⟩

private theorem srun_append (sch : ISched S (FlowBatch F)) (g : Gen F O I) (cfg : Cfg) (l m : List Act) (s : SSt S F O I) :
    srun sch g cfg (l ++ m) s = srun sch g cfg m (srun sch g cfg l s) := by
  induction l generalizing s with
  | nil => rfl
  | cons a l ih => exact ih _

private theorem setPc_self (pc : Nat → SPc F O I) (i : Nat) : setPc pc i (pc i) = pc := by
  funext j
  unfold setPc
  split
  · rename_i h; rw [h]
  · rfl

private theorem setPc_set (pc : Nat → SPc F O I) (i : Nat) (x y : SPc F O I) : setPc (setPc pc i x) i y = setPc pc i y := by
  funext j
  unfold setPc
  split <;> rfl

private theorem setPc_at (pc : Nat → SPc F O I) (i : Nat) (x : SPc F O I) : setPc pc i x i = x := if_pos rfl

private theorem srun_steps (sch : ISched S (FlowBatch F)) (g : Gen F O I) (cfg : Cfg) (i k : Nat) (sh : Sh S F O) (pc : Nat → SPc F O I) (x : SPc F O I)
    (out : List (Nat × Except Exc (OutBatch O I))) :
    srun sch g cfg (List.replicate k (.step i)) { shared := sh, pc := setPc pc i x, out := out } =
      { shared := (ssteps sch g cfg k (x, sh)).2, pc := setPc pc i (ssteps sch g cfg k (x, sh)).1, out := out } := by
  induction k generalizing x sh with
  | zero => rfl
  | succ k ih =>
    rw [List.replicate_succ]
    show srun sch g cfg (List.replicate k (.step i)) (sact sch g cfg _ (.step i)) = _
    have e : sact sch g cfg { shared := sh, pc := setPc pc i x, out := out } (.step i) =
        { shared := (sstep sch g cfg (x, sh)).2, pc := setPc pc i (sstep sch g cfg (x, sh)).1, out := out } := by
      simp only [sact, setPc_at, setPc_set]
    rw [e, ih]
    rfl

private theorem call_alone (sch : ISched S (FlowBatch F)) (g : Gen F O I) (cfg : Cfg) (s : Sh S F O) (hI : Inv cfg s) (r : Except Exc (OutBatch O I)) (t : St S F O)
    (h : Sampler.next sch g cfg s.st = some (r, t)) (i : Nat) (out : List (Nat × Except Exc (OutBatch O I))) :
    ∃ h' k, srun sch g cfg (callAlone i k) { shared := s, pc := fun _ => .idle, out := out } =
      { shared := { st := t, hasOut := h' }, pc := fun _ => .idle, out := out ++ [(i, r)] } ∧ Inv cfg { st := t, hasOut := h' } := by
  obtain ⟨h', ⟨k, hk⟩, h2⟩ := next_to sch g cfg s hI r t h
  refine ⟨h', k, ?_, h2⟩
  unfold callAlone
  show srun sch g cfg (List.replicate k (.step i) ++ [.take i]) (sact sch g cfg _ (.call i)) = _
  have e : sact sch g cfg { shared := s, pc := fun _ => .idle, out := out } (.call i) = { shared := s, pc := setPc (fun _ => .idle) i .head, out := out } := rfl
  rw [e, srun_append, srun_steps, hk]
  simp only [srun, sact, setPc_at, setPc_set]
  congr 1
  exact setPc_self (fun _ => SPc.idle) i

/-- **C180**: as long as no two calls overlap, it does not matter which thread makes which call: the batches are those of a sampler used by one thread. -/
theorem C180_serial (sch : ISched S (FlowBatch F)) (g : Gen F O I) (cfg : Cfg) (sc : S) (rs : List (Except Exc (OutBatch O I))) (t : St S F O)
    (h : Sequence sch g cfg (Sampler.init cfg sc) rs t) (threads : List Nat) (hl : threads.length = rs.length) :
    ∃ ks : List Nat, ks.length = rs.length ∧
      (srun sch g cfg (List.zipWith callAlone threads ks).flatten (fresh cfg sc)).out = threads.zip rs ∧
      (srun sch g cfg (List.zipWith callAlone threads ks).flatten (fresh cfg sc)).shared.st = t := by
  suffices H : ∀ (s : St S F O) (h0 : Bool) (out : List (Nat × Except Exc (OutBatch O I))), Sequence sch g cfg s rs t → Inv cfg { st := s, hasOut := h0 } →
      ∃ (ks : List Nat) (h' : Bool), ks.length = rs.length ∧
      srun sch g cfg (List.zipWith callAlone threads ks).flatten { shared := { st := s, hasOut := h0 }, pc := fun _ => .idle, out := out } =
        { shared := { st := t, hasOut := h' }, pc := fun _ => .idle, out := out ++ threads.zip rs } by
    obtain ⟨ks, h', e1, e2⟩ := H (Sampler.init cfg sc) false [] h (fun fl hc => by simp [Sampler.init] at hc)
    refine ⟨ks, e1, ?_, ?_⟩
    · show (srun sch g cfg _ { shared := { st := Sampler.init cfg sc, hasOut := false }, pc := fun _ => .idle, out := [] }).out = _
      rw [e2]
      rfl
    · show (srun sch g cfg _ { shared := { st := Sampler.init cfg sc, hasOut := false }, pc := fun _ => .idle, out := [] }).shared.st = _
      rw [e2]
  clear h
  induction rs generalizing threads with
  | nil =>
    intro s h0 out hs _
    cases hs
    have : threads = [] := List.eq_nil_of_length_eq_zero (by simpa using hl)
    subst this
    exact ⟨[], h0, rfl, by simp [srun]⟩
  | cons r rs ih =>
    intro s h0 out hs hI
    cases threads with
    | nil => simp at hl
    | cons i threads =>
      cases hs with
      | @cons _ _ t1 _ _ h1 h2 =>
        obtain ⟨h', k, hk, hI'⟩ := call_alone sch g cfg { st := s, hasOut := h0 } hI r t1 h1 i out
        obtain ⟨ks, h'', e1, e2⟩ := ih threads (by simpa using hl) t1 h' (out ++ [(i, r)]) h2 hI'
        refine ⟨k :: ks, h'', by simp [e1], ?_⟩
        rw [List.zipWith_cons_cons, List.flatten_cons, srun_append, hk, e2, List.append_assoc]
        rfl

/-! ## What every schedule delivers -/

section sources
variable (sch : ISched S (FlowBatch F)) (g : Gen F O I) (cfg : Cfg) (sc : S)

private def OkImages (im : List I) : Prop := ∃ j fl, Derived sch g cfg sc fl ∧ im = images g cfg (advanced (.seed cfg.seed) j).split2.2 fl
private def OkFlows (o : List O) : Prop := ∃ fl, Derived sch g cfg sc fl ∧ o = (adaptAll g cfg fl).1
private def OkMask (m : Option (List Bool)) : Prop := ∃ b, Served sch cfg.ffpb sc b ∧ m = b.mask
private def OkFiles (m : Option (List String)) : Prop := ∃ b, Served sch cfg.ffpb sc b ∧ m = b.files
private def OkBatch (b : OutBatch O I) : Prop := OkImages sch g cfg sc b.images ∧ OkFlows sch g cfg sc b.flows ∧ OkMask sch cfg sc b.mask ∧ OkFiles sch cfg sc b.files

private structure SharedOk (s : Sh S F O) : Prop where
  reach : ∀ b, Served sch cfg.ffpb s.st.sched b → Served sch cfg.ffpb sc b
  cur : ∀ fl, s.st.cur = some fl → Derived sch g cfg sc fl
  out : s.hasOut = true → OkFlows sch g cfg sc s.st.outFlows
  mask : s.hasOut = true → OkMask sch cfg sc s.st.mask
  files : s.hasOut = true → OkFiles sch cfg sc s.st.files
  rng : ∃ j, s.st.rng = advanced (.seed cfg.seed) j

private def PcOk (s : Sh S F O) : SPc F O I → Prop
  | .testCount | .readKey => s.st.cur.isSome = true
  | .setFlows b => Served sch cfg.ffpb sc b
  | .setMask b => Served sch cfg.ffpb sc b ∧ s.st.cur.isSome = true
  | .setFiles b => Served sch cfg.ffpb sc b ∧ s.st.cur.isSome = true ∧ OkMask sch cfg sc s.st.mask
  | .readLaid | .adapt => s.st.cur.isSome = true ∧ OkMask sch cfg sc s.st.mask ∧ OkFiles sch cfg sc s.st.files
  | .storeLaid fl => Derived sch g cfg sc fl ∧ OkMask sch cfg sc s.st.mask ∧ OkFiles sch cfg sc s.st.files
  | .setOut a => (∃ fl, Derived sch g cfg sc fl ∧ a = adaptAll g cfg fl) ∧ OkMask sch cfg sc s.st.mask ∧ OkFiles sch cfg sc s.st.files
  | .setAdapted fl => Derived sch g cfg sc fl
  | .storeKey k => s.st.cur.isSome = true ∧ ∃ j, k = advanced (.seed cfg.seed) j
  | .make k => s.st.cur.isSome = true ∧ ∃ j, k = (advanced (.seed cfg.seed) j).split2.2
  | .readOut im => OkImages sch g cfg sc im
  | .readMask im fl => OkImages sch g cfg sc im ∧ OkFlows sch g cfg sc fl ∧ s.hasOut = true
  | .readFiles im fl m => OkImages sch g cfg sc im ∧ OkFlows sch g cfg sc fl ∧ OkMask sch cfg sc m ∧ s.hasOut = true
  | .readCount b | .storeCount b _ | .flags b => OkBatch sch g cfg sc b
  | .done r => ∀ b, r = .ok b → OkBatch sch g cfg sc b
  | _ => True

private structure Mono (s s' : Sh S F O) : Prop where
  cur : s.st.cur.isSome = true → s'.st.cur.isSome = true
  mask : OkMask sch cfg sc s.st.mask → OkMask sch cfg sc s'.st.mask
  files : OkFiles sch cfg sc s.st.files → OkFiles sch cfg sc s'.st.files
  out : s.hasOut = true → s'.hasOut = true

variable {sch g cfg sc}

private theorem Mono.refl (s : Sh S F O) : Mono sch cfg sc s s := ⟨id, id, id, id⟩

private theorem PcOk.mono {s s' : Sh S F O} (h : Mono sch cfg sc s s') {pc : SPc F O I} (hp : PcOk sch g cfg sc s pc) : PcOk sch g cfg sc s' pc := by
  cases pc with
  | testCount => exact h.cur hp
  | readKey => exact h.cur hp
  | setMask b => exact ⟨hp.1, h.cur hp.2⟩
  | setFiles b => exact ⟨hp.1, h.cur hp.2.1, h.mask hp.2.2⟩
  | readLaid => exact ⟨h.cur hp.1, h.mask hp.2.1, h.files hp.2.2⟩
  | adapt => exact ⟨h.cur hp.1, h.mask hp.2.1, h.files hp.2.2⟩
  | storeLaid fl => exact ⟨hp.1, h.mask hp.2.1, h.files hp.2.2⟩
  | setOut a => exact ⟨hp.1, h.mask hp.2.1, h.files hp.2.2⟩
  | storeKey k => exact ⟨h.cur hp.1, hp.2⟩
  | make k => exact ⟨h.cur hp.1, hp.2⟩
  | readMask im fl => exact ⟨hp.1, hp.2.1, h.out hp.2.2⟩
  | readFiles im fl m => exact ⟨hp.1, hp.2.1, hp.2.2.1, h.out hp.2.2.2⟩
  | _ => exact hp

private theorem cur_derived {s : Sh S F O} (hs : SharedOk sch g cfg sc s) (h : s.st.cur.isSome = true) : Derived sch g cfg sc (s.st.cur.getD []) := by
  cases hc : s.st.cur with
  | none => rw [hc] at h; simp at h
  | some fl => exact hs.cur fl hc

private theorem sstep_ok {s : Sh S F O} {pc : SPc F O I} (hs : SharedOk sch g cfg sc s) (hp : PcOk sch g cfg sc s pc) :
    SharedOk sch g cfg sc (sstep sch g cfg (pc, s)).2 ∧ PcOk sch g cfg sc (sstep sch g cfg (pc, s)).2 (sstep sch g cfg (pc, s)).1 ∧
      Mono sch cfg sc s (sstep sch g cfg (pc, s)).2 := by
  cases pc with
  | idle => exact ⟨hs, trivial, .refl s⟩
  | head =>
    simp only [sstep]
    split
    · exact ⟨hs, by simp [PcOk], .refl s⟩
    · exact ⟨hs, trivial, .refl s⟩
  | testNone =>
    simp only [sstep]
    cases hc : s.st.cur with
    | none => exact ⟨hs, trivial, .refl s⟩
    | some fl => exact ⟨hs, by simp [PcOk, hc], .refl s⟩
  | testCount =>
    simp only [sstep]
    split
    · exact ⟨hs, trivial, .refl s⟩
    · exact ⟨hs, hp, .refl s⟩
  | zero => exact ⟨⟨hs.reach, hs.cur, hs.out, hs.mask, hs.files, hs.rng⟩, trivial, ⟨id, id, id, id⟩⟩
  | fetch =>
    simp only [sstep]
    cases hf : sch.getBatch cfg.ffpb s.st.sched with
    | none => exact ⟨hs, trivial, .refl s⟩
    | some q =>
      obtain ⟨q, sc'⟩ := q
      cases q with
      | error e => exact ⟨⟨fun b hb => hs.reach b (.later hf hb), hs.cur, hs.out, hs.mask, hs.files, hs.rng⟩, by simp [PcOk], ⟨id, id, id, id⟩⟩
      | ok b => exact ⟨⟨fun b hb => hs.reach b (.later hf hb), hs.cur, hs.out, hs.mask, hs.files, hs.rng⟩, hs.reach b (.now hf), ⟨id, id, id, id⟩⟩
  | setFlows b =>
    refine ⟨⟨hs.reach, ?_, hs.out, hs.mask, hs.files, hs.rng⟩, ⟨hp, rfl⟩, ⟨fun _ => rfl, id, id, id⟩⟩
    intro fl h
    simp only [sstep, Option.some.injEq] at h
    exact h ▸ .served hp
  | setMask b => exact ⟨⟨hs.reach, hs.cur, hs.out, fun _ => ⟨b, hp.1, rfl⟩, hs.files, hs.rng⟩, ⟨hp.1, hp.2, ⟨b, hp.1, rfl⟩⟩, ⟨id, fun _ => ⟨b, hp.1, rfl⟩, id, id⟩⟩
  | setFiles b => exact ⟨⟨hs.reach, hs.cur, hs.out, hs.mask, fun _ => ⟨b, hp.1, rfl⟩, hs.rng⟩, ⟨hp.2.1, hp.2.2, ⟨b, hp.1, rfl⟩⟩, ⟨id, id, fun _ => ⟨b, hp.1, rfl⟩, id⟩⟩
  | readLaid =>
    simp only [sstep]
    split
    · exact ⟨hs, by simp [PcOk], .refl s⟩
    · exact ⟨hs, ⟨cur_derived hs hp.1, hp.2⟩, .refl s⟩
  | storeLaid fl =>
    refine ⟨⟨hs.reach, ?_, hs.out, hs.mask, hs.files, hs.rng⟩, ⟨rfl, hp.2⟩, ⟨fun _ => rfl, id, id, id⟩⟩
    intro fl' h
    simp only [sstep, Option.some.injEq] at h
    exact h ▸ hp.1
  | adapt =>
    simp only [sstep]
    split
    · exact ⟨hs, by simp [PcOk], .refl s⟩
    · exact ⟨hs, ⟨⟨_, cur_derived hs hp.1, rfl⟩, hp.2⟩, .refl s⟩
  | setOut a =>
    obtain ⟨⟨fl, h1, rfl⟩, h2, h3⟩ := hp
    exact ⟨⟨hs.reach, hs.cur, fun _ => ⟨fl, h1, rfl⟩, fun _ => h2, fun _ => h3, hs.rng⟩, .adapted h1, ⟨id, id, id, fun _ => rfl⟩⟩
  | setAdapted fl =>
    refine ⟨⟨hs.reach, ?_, hs.out, hs.mask, hs.files, hs.rng⟩, rfl, ⟨fun _ => rfl, id, id, id⟩⟩
    intro fl' h
    simp only [sstep, Option.some.injEq] at h
    exact h ▸ hp
  | readKey => exact ⟨hs, ⟨hp, hs.rng⟩, .refl s⟩
  | storeKey k =>
    obtain ⟨h1, j, rfl⟩ := hp
    exact ⟨⟨hs.reach, hs.cur, hs.out, hs.mask, hs.files, ⟨j + 1, rfl⟩⟩, ⟨h1, j, rfl⟩, ⟨id, id, id, id⟩⟩
  | make k =>
    obtain ⟨h1, j, rfl⟩ := hp
    simp only [sstep]
    split
    · exact ⟨hs, by simp [PcOk], .refl s⟩
    · exact ⟨hs, ⟨j, _, cur_derived hs h1, rfl⟩, .refl s⟩
  | readOut im =>
    simp only [sstep]
    split
    · rename_i h
      exact ⟨hs, ⟨hp, hs.out h, h⟩, .refl s⟩
    · exact ⟨hs, by simp [PcOk], .refl s⟩
  | readMask im fl => exact ⟨hs, ⟨hp.1, hp.2.1, hs.mask hp.2.2, hp.2.2⟩, .refl s⟩
  | readFiles im fl m => exact ⟨hs, ⟨hp.1, hp.2.1, hp.2.2.1, hs.files hp.2.2.2⟩, .refl s⟩
  | readCount b => exact ⟨hs, hp, .refl s⟩
  | storeCount b n => exact ⟨⟨hs.reach, hs.cur, hs.out, hs.mask, hs.files, hs.rng⟩, hp, ⟨id, id, id, id⟩⟩
  | flags b =>
    refine ⟨hs, ?_, .refl s⟩
    intro b' h
    simp only [Except.ok.injEq] at h
    exact h ▸ hp
  | done r => exact ⟨hs, hp, .refl s⟩

variable (sch g cfg sc) in
private structure AllOk (s : SSt S F O I) : Prop where
  shared : SharedOk sch g cfg sc s.shared
  pcs : ∀ i, PcOk sch g cfg sc s.shared (s.pc i)
  out : ∀ i b, (i, .ok b) ∈ s.out → OkBatch sch g cfg sc b

private theorem sact_ok {s : SSt S F O I} (h : AllOk sch g cfg sc s) (a : Act) : AllOk sch g cfg sc (sact sch g cfg s a) := by
  have set : ∀ (i : Nat) (x : SPc F O I) (sh : Sh S F O), SharedOk sch g cfg sc sh → PcOk sch g cfg sc sh x → Mono sch cfg sc s.shared sh →
      AllOk sch g cfg sc { s with shared := sh, pc := setPc s.pc i x } := by
    intro i x sh h1 h2 h3
    refine ⟨h1, fun j => ?_, h.out⟩
    show PcOk sch g cfg sc sh (if j = i then x else s.pc j)
    split
    · exact h2
    · exact (h.pcs j).mono h3
  cases a with
  | call i =>
    simp only [sact]
    split
    · exact set i .head s.shared h.shared trivial (.refl _)
    · exact h
  | step i =>
    obtain ⟨h1, h2, h3⟩ := sstep_ok h.shared (h.pcs i)
    exact set i _ _ h1 h2 h3
  | take i =>
    simp only [sact]
    split
    · rename_i r hr
      have hd := h.pcs i
      rw [hr] at hd
      refine ⟨h.shared, (set i .idle s.shared h.shared trivial (.refl _)).pcs, ?_⟩
      intro j b hb
      rcases List.mem_append.1 hb with hb | hb
      · exact h.out j b hb
      · simp only [List.mem_singleton, Prod.mk.injEq] at hb
        exact hd b hb.2.symm
    · exact h

private theorem srun_ok (as : List Act) {s : SSt S F O I} (h : AllOk sch g cfg sc s) : AllOk sch g cfg sc (srun sch g cfg as s) := by
  induction as generalizing s with
  | nil => exact h
  | cons a as ih => exact ih (sact_ok h a)

end sources

/-- **C180** (partial). Any number of threads, any interleaving: whatever is delivered comes from flow batches that the scheduler has served. The images are made with a key of
the sampler's sequence. Missing: that the images, the reported flow, the mask and the names come from the same flow batch (`C180_refuted_mixed`), which has gone
through the adapter exactly once (`C180_refuted_adapted_twice`), and that the keys are different (`C180_refuted_keys`). -/
theorem C180_sources_partial (sch : ISched S (FlowBatch F)) (g : Gen F O I) (cfg : Cfg) (sc : S) (schedule : List Act) (i : Nat) (b : OutBatch O I)
    (h : (i, .ok b) ∈ (srun sch g cfg schedule (fresh cfg sc)).out) :
    (∃ j fl, Derived sch g cfg sc fl ∧ b.images = images g cfg (advanced (.seed cfg.seed) j).split2.2 fl) ∧
    (∃ fl, Derived sch g cfg sc fl ∧ b.flows = (adaptAll g cfg fl).1) ∧
    (∃ q, Served sch cfg.ffpb sc q ∧ b.mask = q.mask) ∧ ∃ q, Served sch cfg.ffpb sc q ∧ b.files = q.files := by
  refine (srun_ok schedule (s := fresh cfg sc) ⟨⟨fun _ h => h, ?_, ?_, ?_, ?_, 0, rfl⟩, fun _ => trivial, ?_⟩).out i b h <;> simp [fresh, sinit, Sampler.init]

/-! ## Between two flow batches -/

/-- `D` calls have done something that the threads in `P` have still to do, `c` calls have begun. -/
private def Bal (P : Nat → Prop) (D c : Nat) : Prop := ∃ A : List Nat, A.Nodup ∧ (∀ i, P i ↔ i ∈ A) ∧ D + A.length ≤ c

private theorem Bal.same {P Q : Nat → Prop} {D c c' : Nat} (h : Bal P D c) (hc : c ≤ c') (hPQ : ∀ i, Q i ↔ P i) : Bal Q D c' := by
  obtain ⟨A, h1, h2, h3⟩ := h
  exact ⟨A, h1, fun i => (hPQ i).trans (h2 i), by omega⟩

private theorem Bal.call {P Q : Nat → Prop} {D c : Nat} (h : Bal P D c) {i : Nat} (hi : ¬ P i) (hQ : ∀ j, Q j ↔ j = i ∨ P j) : Bal Q D (c + 1) := by
  obtain ⟨A, h1, h2, h3⟩ := h
  refine ⟨i :: A, List.nodup_cons.2 ⟨fun h => hi ((h2 i).2 h), h1⟩, fun j => ?_, by simp only [List.length_cons]; omega⟩
  rw [hQ, List.mem_cons, h2]

private theorem Bal.finish {P Q : Nat → Prop} {D c : Nat} (h : Bal P D c) {i : Nat} (hi : P i) (hQ : ∀ j, Q j ↔ j ≠ i ∧ P j) : Bal Q (D + 1) c := by
  obtain ⟨A, h1, h2, h3⟩ := h
  have hiA := (h2 i).1 hi
  refine ⟨A.erase i, h1.erase i, fun j => ?_, ?_⟩
  · rw [hQ, h1.mem_erase_iff, h2]
  · have := List.length_erase_of_mem hiA
    have := List.length_pos_of_mem hiA
    omega

private theorem Bal.lt {P : Nat → Prop} {D c : Nat} (h : Bal P D c) {i : Nat} (hi : P i) : D < c := by
  obtain ⟨A, h1, h2, h3⟩ := h
  have := List.length_pos_of_mem ((h2 i).1 hi)
  omega

/-- The key is still to be stored. -/
private def KP : SPc F O I → Prop
  | .head | .testNone | .testCount | .readKey | .storeKey _ => True
  | _ => False

/-- The counter is still to be stored. -/
private def CP : SPc F O I → Prop
  | .head | .testNone | .testCount | .readKey | .storeKey _ | .make _ | .readOut _ | .readMask _ _ | .readFiles _ _ _ | .readCount _ | .storeCount _ _ => True
  | _ => False

section between
variable (sch : ISched S (FlowBatch F)) (g : Gen F O I) (cfg : Cfg) (s0 : Sh S F O) (fl : List F)

private def imgs (j : Nat) : List I := images g cfg (advanced s0.st.rng j).split2.2 fl

private def bat (j : Nat) (d : Option (List Bool)) : OutBatch O I :=
  { images := imgs g cfg s0 fl j, flows := s0.st.outFlows, mask := s0.st.mask, files := s0.st.files, done := d }

private def PcB (K D c : Nat) : SPc F O I → Prop
  | .idle | .head | .testNone | .testCount | .readKey => True
  | .storeKey k => ∃ j, j ≤ K ∧ k = advanced s0.st.rng j
  | .make k => ∃ j, j < c ∧ k = (advanced s0.st.rng j).split2.2
  | .readOut im => ∃ j, j < c ∧ im = imgs g cfg s0 fl j
  | .readMask im o => ∃ j, j < c ∧ im = imgs g cfg s0 fl j ∧ o = s0.st.outFlows
  | .readFiles im o m => ∃ j, j < c ∧ im = imgs g cfg s0 fl j ∧ o = s0.st.outFlows ∧ m = s0.st.mask
  | .readCount b | .flags b => ∃ j, j < c ∧ b = bat g cfg s0 fl j none
  | .storeCount b n => (∃ j, j < c ∧ b = bat g cfg s0 fl j none) ∧ n ≤ s0.st.generated + D
  | .done r => ∃ j, j < c ∧ r = .ok (bat g cfg s0 fl j (makeDone sch cfg.batchSize s0.st.sched))
  | _ => False

private structure B (K D c : Nat) (s : SSt S F O I) : Prop where
  st : ∃ m n, s.shared = { st := { s0.st with rng := advanced s0.st.rng m, generated := n }, hasOut := true } ∧ m ≤ K ∧ n ≤ s0.st.generated + D
  pcs : ∀ i, PcB sch g cfg s0 fl K D c (s.pc i)
  kb : Bal (fun i => KP (s.pc i)) K c
  cb : Bal (fun i => CP (s.pc i)) D c
  out : ∀ q ∈ s.out, ∃ j, j < c ∧ q.2 = .ok (bat g cfg s0 fl j (makeDone sch cfg.batchSize s0.st.sched))

variable {sch g cfg s0 fl}

private theorem PcB.mono {K D c K' D' c' : Nat} (hK : K ≤ K') (hD : D ≤ D') (hc : c ≤ c') {pc : SPc F O I} (h : PcB sch g cfg s0 fl K D c pc) :
    PcB sch g cfg s0 fl K' D' c' pc := by
  cases pc with
  | storeKey k => obtain ⟨j, h1, h2⟩ := h; exact ⟨j, by omega, h2⟩
  | make k => obtain ⟨j, h1, h2⟩ := h; exact ⟨j, by omega, h2⟩
  | readOut im => obtain ⟨j, h1, h2⟩ := h; exact ⟨j, by omega, h2⟩
  | readMask im o => obtain ⟨j, h1, h2⟩ := h; exact ⟨j, by omega, h2⟩
  | readFiles im o m => obtain ⟨j, h1, h2⟩ := h; exact ⟨j, by omega, h2⟩
  | readCount b => obtain ⟨j, h1, h2⟩ := h; exact ⟨j, by omega, h2⟩
  | flags b => obtain ⟨j, h1, h2⟩ := h; exact ⟨j, by omega, h2⟩
  | storeCount b n => obtain ⟨⟨j, h1, h2⟩, h3⟩ := h; exact ⟨⟨j, by omega, h2⟩, by omega⟩
  | done r => obtain ⟨j, h1, h2⟩ := h; exact ⟨j, by omega, h2⟩
  | _ => exact h

private theorem B.step (hr : Ready cfg s0 fl) (he : episodeOver sch s0.st.sched = false) {K D c : Nat} (hb : s0.st.generated + c ≤ cfg.bpfb) {s : SSt S F O I}
    (h : B sch g cfg s0 fl K D c s) (i : Nat) : ∃ K' D', B sch g cfg s0 fl K' D' c (sact sch g cfg s (.step i)) := by
  obtain ⟨m, n, hst, hm, hn⟩ := h.st
  -- nothing but the place of the thread changes
  have stay : ∀ x : SPc F O I, PcB sch g cfg s0 fl K D c x → (KP x ↔ KP (s.pc i)) → (CP x ↔ CP (s.pc i)) →
      sstep sch g cfg (s.pc i, s.shared) = (x, s.shared) → ∃ K' D', B sch g cfg s0 fl K' D' c (sact sch g cfg s (.step i)) := by
    intro x hx hk hcp hstep
    refine ⟨K, D, ?_⟩
    simp only [sact, hstep]
    refine ⟨h.st, ?_, h.kb.same (Nat.le_refl _) ?_, h.cb.same (Nat.le_refl _) ?_, h.out⟩
    · intro j
      show PcB sch g cfg s0 fl K D c (if j = i then x else s.pc j)
      split
      · exact hx
      · exact h.pcs j
    · intro j
      show KP (if j = i then x else s.pc j) ↔ _
      split
      · rename_i e; rw [e]; exact hk
      · rfl
    · intro j
      show CP (if j = i then x else s.pc j) ↔ _
      split
      · rename_i e; rw [e]; exact hcp
      · rfl
  have hpc := h.pcs i
  cases hp : s.pc i with
  | idle => exact stay .idle trivial (by rw [hp]) (by rw [hp]) (by rw [hp]; rfl)
  | head => exact stay .testNone trivial (by rw [hp]; exact Iff.rfl) (by rw [hp]; exact Iff.rfl) (by rw [hp, hst]; simp [sstep, he])
  | testNone => exact stay .testCount trivial (by rw [hp]; exact Iff.rfl) (by rw [hp]; exact Iff.rfl) (by rw [hp, hst]; simp [sstep, hr.cur])
  | testCount =>
    have hlt : D < c := h.cb.lt (i := i) (by show CP (s.pc i); rw [hp]; trivial)
    have : ¬ cfg.bpfb ≤ n := by omega
    exact stay .readKey trivial (by rw [hp]; exact Iff.rfl) (by rw [hp]; exact Iff.rfl) (by rw [hp, hst]; simp [sstep, this])
  | readKey => exact stay (.storeKey (advanced s0.st.rng m)) ⟨m, hm, rfl⟩ (by rw [hp]; exact Iff.rfl) (by rw [hp]; exact Iff.rfl) (by rw [hp, hst]; rfl)
  | storeKey k =>
    rw [hp] at hpc
    obtain ⟨j, hj, rfl⟩ := hpc
    have hKc : K < c := h.kb.lt (i := i) (by show KP (s.pc i); rw [hp]; trivial)
    refine ⟨K + 1, D, ?_⟩
    have e : sstep sch g cfg (s.pc i, s.shared) = (.make (advanced s0.st.rng j).split2.2,
        { st := { s0.st with rng := advanced s0.st.rng (j + 1), generated := n }, hasOut := true }) := by rw [hp, hst]; rfl
    simp only [sact, e]
    refine ⟨⟨j + 1, n, rfl, by omega, hn⟩, ?_, h.kb.finish (i := i) (by show KP (s.pc i); rw [hp]; trivial) ?_, h.cb.same (Nat.le_refl _) ?_, h.out⟩
    · intro j'
      show PcB sch g cfg s0 fl (K + 1) D c (if j' = i then _ else s.pc j')
      split
      · exact ⟨j, by omega, rfl⟩
      · exact (h.pcs j').mono (by omega) (Nat.le_refl _) (Nat.le_refl _)
    · intro j'
      show KP (if j' = i then _ else s.pc j') ↔ _
      split
      · rename_i e; simp [KP, e]
      · rename_i e; simp [e]
    · intro j'
      show CP (if j' = i then _ else s.pc j') ↔ _
      split
      · rename_i e; rw [e, hp]; exact Iff.rfl
      · rfl
  | make k =>
    rw [hp] at hpc
    obtain ⟨j, hj, rfl⟩ := hpc
    exact stay (.readOut (imgs g cfg s0 fl j)) ⟨j, hj, rfl⟩ (by rw [hp]; exact Iff.rfl) (by rw [hp]; exact Iff.rfl)
      (by rw [hp, hst]; simp [sstep, hr.cur, hr.shape, imgs])
  | readOut im =>
    rw [hp] at hpc
    obtain ⟨j, hj, rfl⟩ := hpc
    exact stay (.readMask (imgs g cfg s0 fl j) s0.st.outFlows) ⟨j, hj, rfl, rfl⟩ (by rw [hp]; exact Iff.rfl) (by rw [hp]; exact Iff.rfl)
      (by rw [hp, hst]; simp [sstep])
  | readMask im o =>
    rw [hp] at hpc
    obtain ⟨j, hj, rfl, rfl⟩ := hpc
    exact stay (.readFiles (imgs g cfg s0 fl j) s0.st.outFlows s0.st.mask) ⟨j, hj, rfl, rfl, rfl⟩ (by rw [hp]; exact Iff.rfl) (by rw [hp]; exact Iff.rfl)
      (by rw [hp, hst]; rfl)
  | readFiles im o ma =>
    rw [hp] at hpc
    obtain ⟨j, hj, rfl, rfl, rfl⟩ := hpc
    exact stay (.readCount (bat g cfg s0 fl j none)) ⟨j, hj, rfl⟩ (by rw [hp]; exact Iff.rfl) (by rw [hp]; exact Iff.rfl) (by rw [hp, hst]; rfl)
  | readCount b =>
    rw [hp] at hpc
    exact stay (.storeCount b n) ⟨hpc, hn⟩ (by rw [hp]; exact Iff.rfl) (by rw [hp]; exact Iff.rfl) (by rw [hp, hst]; rfl)
  | storeCount b n' =>
    rw [hp] at hpc
    obtain ⟨⟨j, hj, rfl⟩, hn'⟩ := hpc
    refine ⟨K, D + 1, ?_⟩
    have e : sstep sch g cfg (s.pc i, s.shared) = (.flags (bat g cfg s0 fl j none),
        { st := { s0.st with rng := advanced s0.st.rng m, generated := n' + 1 }, hasOut := true }) := by rw [hp, hst]; rfl
    simp only [sact, e]
    refine ⟨⟨m, n' + 1, rfl, hm, by omega⟩, ?_, h.kb.same (Nat.le_refl _) ?_, h.cb.finish (i := i) (by show CP (s.pc i); rw [hp]; trivial) ?_, h.out⟩
    · intro j'
      show PcB sch g cfg s0 fl K (D + 1) c (if j' = i then _ else s.pc j')
      split
      · exact ⟨j, hj, rfl⟩
      · exact (h.pcs j').mono (Nat.le_refl _) (by omega) (Nat.le_refl _)
    · intro j'
      show KP (if j' = i then _ else s.pc j') ↔ _
      split
      · rename_i e; rw [e, hp]; exact Iff.rfl
      · rfl
    · intro j'
      show CP (if j' = i then _ else s.pc j') ↔ _
      split
      · rename_i e; simp [CP, e]
      · rename_i e; simp [e]
  | flags b =>
    rw [hp] at hpc
    obtain ⟨j, hj, rfl⟩ := hpc
    exact stay (.done (.ok (bat g cfg s0 fl j (makeDone sch cfg.batchSize s0.st.sched)))) ⟨j, hj, rfl⟩ (by rw [hp]; exact Iff.rfl) (by rw [hp]; exact Iff.rfl)
      (by rw [hp, hst]; rfl)
  | done r =>
    rw [hp] at hpc
    exact stay (.done r) hpc (by rw [hp]) (by rw [hp]) (by rw [hp]; rfl)
  | zero => rw [hp] at hpc; exact hpc.elim
  | fetch => rw [hp] at hpc; exact hpc.elim
  | setFlows b => rw [hp] at hpc; exact hpc.elim
  | setMask b => rw [hp] at hpc; exact hpc.elim
  | setFiles b => rw [hp] at hpc; exact hpc.elim
  | readLaid => rw [hp] at hpc; exact hpc.elim
  | storeLaid b => rw [hp] at hpc; exact hpc.elim
  | adapt => rw [hp] at hpc; exact hpc.elim
  | setOut b => rw [hp] at hpc; exact hpc.elim
  | setAdapted b => rw [hp] at hpc; exact hpc.elim

private theorem B.run (hr : Ready cfg s0 fl) (he : episodeOver sch s0.st.sched = false) (as : List Act) {K D c : Nat} (hb : s0.st.generated + (c + calls as) ≤ cfg.bpfb)
    {s : SSt S F O I} (h : B sch g cfg s0 fl K D c s) : ∃ K' D', B sch g cfg s0 fl K' D' (c + calls as) (srun sch g cfg as s) := by
  induction as generalizing K D c s with
  | nil => exact ⟨K, D, h⟩
  | cons a as ih =>
    cases a with
    | call i =>
      simp only [calls] at hb ⊢
      have h' : B sch g cfg s0 fl K D (c + 1) (sact sch g cfg s (.call i)) := by
        simp only [sact]
        split
        · rename_i hi
          refine ⟨h.st, ?_, h.kb.call (i := i) (by show ¬ KP (s.pc i); rw [hi]; exact id) ?_, h.cb.call (i := i) (by show ¬ CP (s.pc i); rw [hi]; exact id) ?_, ?_⟩
          · intro j
            show PcB sch g cfg s0 fl K D (c + 1) (if j = i then .head else s.pc j)
            split
            · trivial
            · exact (h.pcs j).mono (Nat.le_refl _) (Nat.le_refl _) (by omega)
          · intro j
            show KP (if j = i then .head else s.pc j) ↔ _
            split
            · rename_i e; simp [KP, e]
            · rename_i e; simp [e]
          · intro j
            show CP (if j = i then .head else s.pc j) ↔ _
            split
            · rename_i e; simp [CP, e]
            · rename_i e; simp [e]
          · intro q hq
            obtain ⟨j, h1, h2⟩ := h.out q hq
            exact ⟨j, by omega, h2⟩
        · refine ⟨h.st, fun j => (h.pcs j).mono (Nat.le_refl _) (Nat.le_refl _) (by omega), h.kb.same (by omega) fun _ => Iff.rfl,
            h.cb.same (by omega) fun _ => Iff.rfl, ?_⟩
          intro q hq
          obtain ⟨j, h1, h2⟩ := h.out q hq
          exact ⟨j, by omega, h2⟩
      obtain ⟨K', D', h''⟩ := ih (by omega) h'
      exact ⟨K', D', by rw [show c + (calls as + 1) = c + 1 + calls as by omega]; exact h''⟩
    | step i =>
      simp only [calls] at hb ⊢
      obtain ⟨K1, D1, h1⟩ := h.step hr he (by omega) i
      exact ih hb h1
    | take i =>
      simp only [calls] at hb ⊢
      refine ih (K := K) (D := D) hb ?_
      simp only [sact]
      split
      · rename_i r hi
        have hd := h.pcs i
        rw [hi] at hd
        refine ⟨h.st, ?_, h.kb.same (Nat.le_refl _) ?_, h.cb.same (Nat.le_refl _) ?_, ?_⟩
        · intro j
          show PcB sch g cfg s0 fl K D c (if j = i then .idle else s.pc j)
          split
          · trivial
          · exact h.pcs j
        · intro j
          show KP (if j = i then .idle else s.pc j) ↔ _
          split
          · rename_i e; rw [e, hi]; exact Iff.rfl
          · rfl
        · intro j
          show CP (if j = i then .idle else s.pc j) ↔ _
          split
          · rename_i e; rw [e, hi]; exact Iff.rfl
          · rfl
        · intro q hq
          rcases List.mem_append.1 hq with hq | hq
          · exact h.out q hq
          · rw [List.mem_singleton] at hq
            rw [hq]
            exact hd
      · exact h

end between

/-- **C180** (partial): as long as the present flow batch lasts. If the batches still to be made of it are enough for all the calls, then every call succeeds, whatever the
interleaving, and returns images of these flow fields with their reported flow, mask and names; no flow batch is fetched. Only the keys may coincide
(`C180_refuted_keys`); each is one of the next keys of the sequence. -/
theorem C180_between_partial (sch : ISched S (FlowBatch F)) (g : Gen F O I) (cfg : Cfg) (s : Sh S F O) (fl : List F) (hr : Ready cfg s fl)
    (he : episodeOver sch s.st.sched = false) (schedule : List Act) (hb : s.st.generated + calls schedule ≤ cfg.bpfb) :
    (∀ i r, (i, r) ∈ (srun sch g cfg schedule (sinit s)).out → ∃ j < calls schedule, r = .ok
      { images := images g cfg (advanced s.st.rng j).split2.2 fl, flows := s.st.outFlows, mask := s.st.mask, files := s.st.files,
        done := makeDone sch cfg.batchSize s.st.sched }) ∧
    (srun sch g cfg schedule (sinit s)).shared.st.sched = s.st.sched ∧ (srun sch g cfg schedule (sinit s)).shared.st.cur = some fl := by
  have h0 : B sch g cfg s fl 0 0 0 (sinit s) := by
    refine ⟨⟨0, s.st.generated, ?_, Nat.le_refl _, Nat.le_refl _⟩, fun _ => trivial, ⟨[], by simp, fun i => ?_, by simp⟩, ⟨[], by simp, fun i => ?_, by simp⟩, by simp [sinit]⟩
    · show s = _
      rw [← hr.out]
      rfl
    · exact ⟨fun h => h.elim, fun h => by simp at h⟩
    · exact ⟨fun h => h.elim, fun h => by simp at h⟩
  obtain ⟨K, D, h⟩ := h0.run hr he schedule (by omega)
  rw [Nat.zero_add] at h
  obtain ⟨m, n, hst, _, _⟩ := h.st
  refine ⟨fun i r hq => ?_, by rw [hst], by rw [hst]; exact hr.cur⟩
  obtain ⟨j, h1, h2⟩ := h.out (i, r) hq
  exact ⟨j, h1, h2⟩

/-! ## What goes wrong -/

private def go (i n : Nat) : List Act := List.replicate n (.step i)

/-- A scheduler with the flow batches `a`, `b` and `c`. -/
private def demoSch : ISched Nat (FlowBatch Nat) where
  getBatch _ s := if s < 3 then some (.ok { flows := [10 * (s + 1)], mask := none, files := some [["a", "b", "c"].getD s ""] }, s + 1) else some (.error .stopIteration, s)
  reset _ := .ok 0
  episodic := none

/-- The adapter reports the flow and adds one to the flow for the images, which show it next to the key. -/
private def demoGen : Gen Nat Nat (KeyTerm × Nat) where
  adapt f := (f, f + 1)
  render k _ _ f := (k, f)

private def demoCfg (bpfb : Nat) : Cfg := { batchSize := 1, ndevices := 1, bpfb := bpfb, ffpb := 1, seed := 0 }

/-- The key of the `j`-th batch. -/
private def keyOf (j : Nat) : KeyTerm := KeyTerm.sub (advanced (.seed 0) j).split2.2 1 0

/-- Without overlap: `a`, then `b`, with the first and the second key. The hypotheses of `C180_serial`. -/
example : ∃ t, Sequence demoSch demoGen (demoCfg 1) (Sampler.init (demoCfg 1) 0)
    [.ok { images := [(keyOf 0, 11)], flows := [10], mask := none, files := some ["a"], done := none },
      .ok { images := [(keyOf 1, 21)], flows := [20], mask := none, files := some ["b"], done := none }] t :=
  ⟨_, .cons rfl (.cons rfl (.nil _))⟩

example : (srun demoSch demoGen (demoCfg 1) (callAlone 3 21 ++ callAlone 5 22) (fresh (demoCfg 1) 0)).out =
    [(3, .ok { images := [(keyOf 0, 11)], flows := [10], mask := none, files := some ["a"], done := none }),
      (5, .ok { images := [(keyOf 1, 21)], flows := [20], mask := none, files := some ["b"], done := none })] := by decide

/-- **C180 is false: the first calls fail.** `_current_flows` is set and `output_flow_fields` does not exist yet. -/
theorem C180_refuted_first : ∃ schedule, (srun demoSch demoGen (demoCfg 1) schedule (fresh (demoCfg 1) 0)).out = [(1, .error .attributeError)] :=
  ⟨[.call 0, .call 1] ++ go 0 5 ++ go 1 7 ++ [.take 1], by decide⟩

/-- **C180 is false: flow fields go through the adapter twice.** The reported flow would have to be 20 and the images made with 21. -/
theorem C180_refuted_adapted_twice : ∃ schedule, (srun demoSch demoGen (demoCfg 1) schedule (fresh (demoCfg 1) 0)).out =
    [(1, .ok { images := [(keyOf 0, 22)], flows := [21], mask := none, files := some ["b"], done := none })] :=
  ⟨[.call 0, .call 1] ++ go 1 3 ++ go 0 7 ++ go 1 4 ++ go 0 5 ++ go 1 14 ++ [.take 1], by decide⟩

/-- **C180 is false: a flow batch is left out.** Both threads deliver `b`; `a` has been fetched, and nobody gets it. -/
theorem C180_refuted_lost : ∃ schedule, (srun demoSch demoGen (demoCfg 1) schedule (fresh (demoCfg 1) 0)).out =
    [(0, .ok { images := [(keyOf 0, 21)], flows := [20], mask := none, files := some ["b"], done := none }),
      (1, .ok { images := [(keyOf 1, 21)], flows := [20], mask := none, files := some ["b"], done := none })] :=
  ⟨[.call 0, .call 1] ++ go 1 3 ++ go 0 12 ++ go 1 9 ++ go 0 9 ++ go 1 9 ++ [.take 0, .take 1], by decide⟩

/-- **C180 is false: images of one flow batch with the reported flow and the name of another.** -/
theorem C180_refuted_mixed : ∃ schedule, (srun demoSch demoGen (demoCfg 1) schedule (fresh (demoCfg 1) 0)).out =
    [(0, .ok { images := [(keyOf 0, 11)], flows := [20], mask := none, files := some ["b"], done := none })] :=
  ⟨[.call 0, .call 1] ++ go 1 3 ++ go 0 15 ++ go 1 9 ++ go 0 6 ++ [.take 0], by decide⟩

/-- **C180 is false: too many batches of a flow batch**, two instead of one. -/
theorem C180_refuted_too_many : ∃ schedule, (srun demoSch demoGen (demoCfg 1) schedule (fresh (demoCfg 1) 0)).out =
    [(1, .ok { images := [(keyOf 0, 11)], flows := [10], mask := none, files := some ["a"], done := none }),
      (0, .ok { images := [(keyOf 1, 11)], flows := [10], mask := none, files := some ["a"], done := none })] :=
  ⟨[.call 0] ++ go 0 12 ++ callAlone 1 12 ++ go 0 9 ++ [.take 0], by decide⟩

/-- **C180 is false: the same images twice**, whatever the scheduler, the generator and the flow fields: two threads read the key before either has stored the next
one. -/
theorem C180_refuted_keys (sch : ISched S (FlowBatch F)) (g : Gen F O I) (cfg : Cfg) (s : Sh S F O) (fl : List F) (hr : Ready cfg s fl)
    (he : episodeOver sch s.st.sched = false) (hb : s.st.generated + 2 ≤ cfg.bpfb) :
    ∃ schedule b, (srun sch g cfg schedule (sinit s)).out = [(0, .ok b), (1, .ok b)] ∧ b.images = images g cfg s.st.rng.split2.2 fl := by
  have hg : ¬ cfg.bpfb ≤ s.st.generated := by omega
  refine ⟨[.call 0, .call 1] ++ go 0 4 ++ go 1 4 ++ go 0 8 ++ go 1 8 ++ [.take 0, .take 1],
    { images := images g cfg s.st.rng.split2.2 fl, flows := s.st.outFlows, mask := s.st.mask, files := s.st.files, done := makeDone sch cfg.batchSize s.st.sched }, ?_, rfl⟩
  simp [srun, sact, setPc, sinit, go, List.replicate, sstep, he, hr.cur, hr.out, hr.shape, hg]

/-- The hypotheses of `C180_between_partial` and `C180_refuted_keys`: after a first batch with `batches_per_flow_batch=4`, three calls are left. -/
example : ∃ s : Sh Nat Nat Nat, (srun demoSch demoGen (demoCfg 4) (callAlone 0 21) (fresh (demoCfg 4) 0)).shared = s ∧ Ready (demoCfg 4) s [11] ∧
    episodeOver demoSch s.st.sched = false ∧ s.st.generated + calls ([.call 0, .call 1, .call 2] ++ go 0 3 ++ go 1 9 ++ go 2 7) ≤ (demoCfg 4).bpfb :=
  ⟨_, rfl, ⟨rfl, rfl, rfl⟩, rfl, by decide⟩

/-- **C180** (recovery). Whatever the threads have done, as soon as no call is being executed, `reset(scheduler_reset=False)` makes up for it: the sampler shows what a new one
shows on the scheduler as it is. -/
theorem C180_recovers (sch : ISched S (FlowBatch F)) (g : Gen F O I) (cfg : Cfg) (sc : S) (schedule : List Act)
    (_ : ∀ i, (srun sch g cfg schedule (fresh (O := O) (I := I) cfg sc)).pc i = .idle) (ops : List Op) :
    (run sch g cfg (.reset false :: ops) (srun sch g cfg schedule (fresh cfg sc)).shared.st).map (·.1) =
      (run sch g cfg ops (Sampler.init cfg (srun sch g cfg schedule (fresh (O := O) (I := I) cfg sc)).shared.st.sched)).map (fun q => .done :: q.1) :=
  C143_reset_self sch g cfg _ ops

/-- The threads of `C180_refuted_lost` are idle at the end. -/
example : ∀ i, (srun demoSch demoGen (demoCfg 1) ([.call 0, .call 1] ++ go 1 3 ++ go 0 12 ++ go 1 9 ++ go 0 9 ++ go 1 9 ++ [.take 0, .take 1])
    (fresh (demoCfg 1) 0)).pc i = .idle := by
  intro i
  rcases i with _ | _ | i <;> rfl

end Verif.RacingSampler
