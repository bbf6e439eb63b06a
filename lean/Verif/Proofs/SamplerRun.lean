import Verif.Proofs.Sampler
/-!
# Lemmas about runs of the synthetic sampler
-/

namespace Verif.Sampler
open Verif
variable {S B F O I A : Type}

/-- A sampler configuration as the constructor makes it. -/
structure Cfg.OK (cfg : Cfg) : Prop where
  dev : 0 < cfg.ndevices
  dvd : cfg.batchSize % cfg.ndevices = 0
  bpfb : 0 < cfg.bpfb
  ffpb : 0 < cfg.ffpb

theorem Cfg.ok_of_make {b : Int} {nd : Nat} {ep : Bool} {bpfb ffpb seed : Int} {cfg : Cfg}
    (h : Cfg.make b nd ep bpfb ffpb seed = .ok cfg) : cfg.OK := by
  obtain ⟨h1, h2, h3, h4, h5, h6, rfl⟩ := Cfg.make_ok h
  refine ⟨h2, roundUp_dvd _ _, ?_, by simp; omega⟩
  simp only
  split <;> omega

theorem Draws.snoc {sch : ISched S B} {n : Nat} {s : S} {bs : List B} {s' : S} (h : Draws sch n s bs s') {b : B} {s'' : S}
    (hg : sch.getBatch n s' = some (.ok b, s'')) : Draws sch n s (bs ++ [b]) s'' := by
  induction h with
  | nil s => exact .cons hg (.nil _)
  | cons h _ ih => exact .cons h (ih hg)

theorem MadeFrom.of_images (g : Gen F O I) (cfg : Cfg) (hc : cfg.OK) (k : KeyTerm) (b : FlowBatch F)
    (hn0 : 0 < b.flows.length) (hn : b.flows.length % cfg.ndevices = 0) (d : Option (List Bool)) :
    MadeFrom g cfg k b
      { images := images g cfg k (adaptAll g cfg b.flows).2, flows := (adaptAll g cfg b.flows).1, mask := b.mask,
        files := b.files, done := d } := by
  have hl : (adaptAll g cfg b.flows).2.length = b.flows.length := by simp [adaptAll]
  obtain ⟨h1, h2⟩ := images_get g cfg k (adaptAll g cfg b.flows).2 hc.dev hc.dvd (by rw [hl]; exact hn) (by omega)
  obtain ⟨h3, h4⟩ := outFlows_get g cfg b.flows hc.dev hc.dvd hn hn0
  refine ⟨h1, h3, rfl, rfl, fun i hi => ?_⟩
  have hlt := flowOf_lt hc.dev hc.dvd hn hn0 hi
  refine ⟨b.flows[flowOf cfg.batchSize cfg.ndevices b.flows.length i], List.getElem?_eq_getElem hlt, ?_, ?_⟩
  · rw [h4 i hi, List.getElem?_eq_getElem hlt]; rfl
  · rw [h2 i hi, hl]
    simp only [adaptAll, List.getElem?_map, List.getElem?_eq_getElem hlt]
    rfl

/-- What a successful `next` did: either it made a batch from the current flows, or it fetched. -/
theorem next_ok {sch : ISched S (FlowBatch F)} {g : Gen F O I} {cfg : Cfg} {s s' : St S F O} {x : OutBatch O I}
    (h : next sch g cfg s = some (.ok x, s')) :
    episodeOver sch s.sched = false ∧
    ((∃ fl, s.cur = some fl ∧ s.generated < cfg.bpfb ∧ fl.length % cfg.ndevices = 0 ∧
        x = { images := images g cfg s.rng.split2.2 fl, flows := s.outFlows, mask := s.mask, files := s.files,
              done := makeDone sch cfg.batchSize s.sched } ∧
        s' = { s with rng := s.rng.split2.1, generated := s.generated + 1 }) ∨
     ((s.cur = none ∨ cfg.bpfb ≤ s.generated) ∧ ∃ b sc, sch.getBatch cfg.ffpb s.sched = some (.ok b, sc) ∧
        b.flows.length % cfg.ndevices = 0 ∧
        x = { images := images g cfg s.rng.split2.2 (adaptAll g cfg b.flows).2, flows := (adaptAll g cfg b.flows).1,
              mask := b.mask, files := b.files, done := makeDone sch cfg.batchSize sc } ∧
        s' = { sched := sc, rng := s.rng.split2.1, cur := some (adaptAll g cfg b.flows).2,
               outFlows := (adaptAll g cfg b.flows).1, mask := b.mask, files := b.files, generated := 1 })) := by
  unfold next at h
  by_cases ho : episodeOver sch s.sched
  · rw [if_pos ho] at h; simp at h
  rw [if_neg ho] at h
  refine ⟨by simpa using ho, ?_⟩
  have fetchCase : (s.cur = none ∨ cfg.bpfb ≤ s.generated) →
      (match getNext.fetch sch g cfg s with
        | none => none
        | some (.error e, s') => some (.error e, s')
        | some (.ok b, s') => some (.ok { b with done := makeDone sch cfg.batchSize s'.sched }, s')) =
        some (Except.ok (ε := Exc) x, s') →
      ∃ b sc, sch.getBatch cfg.ffpb s.sched = some (.ok b, sc) ∧
        b.flows.length % cfg.ndevices = 0 ∧
        x = { images := images g cfg s.rng.split2.2 (adaptAll g cfg b.flows).2, flows := (adaptAll g cfg b.flows).1,
              mask := b.mask, files := b.files, done := makeDone sch cfg.batchSize sc } ∧
        s' = { sched := sc, rng := s.rng.split2.1, cur := some (adaptAll g cfg b.flows).2,
               outFlows := (adaptAll g cfg b.flows).1, mask := b.mask, files := b.files, generated := 1 } := by
    intro _ h
    unfold getNext.fetch at h
    cases hg : sch.getBatch cfg.ffpb s.sched with
    | none => rw [hg] at h; simp at h
    | some q =>
      obtain ⟨r, sc⟩ := q
      rw [hg] at h
      cases r with
      | error e => simp at h
      | ok b =>
        simp only at h
        by_cases hl : b.flows.length % cfg.ndevices ≠ 0
        · rw [if_pos hl] at h; simp at h
        rw [if_neg hl] at h
        have hl2 : (adaptAll g cfg b.flows).2.length = b.flows.length := by simp [adaptAll]
        have : ¬ (adaptAll g cfg b.flows).2.length % cfg.ndevices ≠ 0 := by rw [hl2]; exact hl
        unfold produce at h
        simp only [if_neg this, Option.some.injEq, Prod.mk.injEq, Except.ok.injEq] at h
        refine ⟨b, sc, rfl, by omega, ?_, ?_⟩
        · rw [← h.1]
        · rw [← h.2]
  unfold getNext at h
  cases hcur : s.cur with
  | none =>
    rw [hcur] at h
    right
    refine ⟨Or.inl rfl, fetchCase (Or.inl hcur) h⟩
  | some fl =>
    rw [hcur] at h
    by_cases hgen : s.generated < cfg.bpfb
    · left
      simp only [if_pos hgen, produce] at h
      by_cases hl : fl.length % cfg.ndevices ≠ 0
      · rw [if_pos hl] at h; simp at h
      rw [if_neg hl] at h
      simp only [Option.some.injEq, Prod.mk.injEq, Except.ok.injEq] at h
      refine ⟨fl, rfl, hgen, by omega, ?_, ?_⟩
      · rw [← h.1]
      · rw [← h.2, hcur]
    · right
      simp only [if_neg hgen] at h
      exact ⟨Or.inr (by omega), fetchCase (Or.inr (by omega)) h⟩

theorem getNext_error {sch : ISched S (FlowBatch F)} {g : Gen F O I} {cfg : Cfg} {s s' : St S F O} {e : Exc}
    (h : getNext sch g cfg s = some (.error e, s')) (he : e ≠ .valueError) :
    ∃ sc, sch.getBatch cfg.ffpb s.sched = some (.error e, sc) ∧ s' = { s with generated := 0, sched := sc } := by
  have hfetch : getNext.fetch sch g cfg s = some (.error e, s') →
      ∃ sc, sch.getBatch cfg.ffpb s.sched = some (.error e, sc) ∧ s' = { s with generated := 0, sched := sc } := by
    intro hf
    unfold getNext.fetch at hf
    cases hg : sch.getBatch cfg.ffpb s.sched with
    | none => rw [hg] at hf; simp at hf
    | some q =>
      obtain ⟨r, sc⟩ := q
      rw [hg] at hf
      cases r with
      | error e' =>
        simp only [Option.some.injEq, Prod.mk.injEq, Except.error.injEq] at hf
        exact ⟨sc, by rw [hf.1], by rw [← hf.2]⟩
      | ok b =>
        exfalso
        simp only [produce] at hf
        repeat' split at hf
        all_goals simp at hf
        all_goals exact he hf.1.symm
  unfold getNext at h
  cases hcur : s.cur with
  | none => simp only [hcur] at h; rw [← hcur]; exact hfetch h
  | some fl =>
    simp only [hcur] at h
    by_cases hgen : s.generated < cfg.bpfb
    · exfalso
      simp only [if_pos hgen, produce] at h
      repeat' split at h
      all_goals simp at h
      all_goals exact he h.1.symm
    · simp only [if_neg hgen] at h
      rw [← hcur]; exact hfetch h

theorem next_error {sch : ISched S (FlowBatch F)} {g : Gen F O I} {cfg : Cfg} {s s' : St S F O} {e : Exc}
    (h : next sch g cfg s = some (.error e, s')) (ho : episodeOver sch s.sched = false) :
    getNext sch g cfg s = some (.error e, s') := by
  unfold next at h
  rw [ho] at h
  simp only [Bool.false_eq_true, if_false] at h
  cases hg : getNext sch g cfg s with
  | none => rw [hg] at h; simp at h
  | some q =>
    obtain ⟨r, sc⟩ := q
    rw [hg] at h
    cases r with
    | ok y => simp at h
    | error e' => simpa using h

theorem reset_ok {sch : ISched S (FlowBatch F)} {cfg : Cfg} {s : St S F O} {sc : S} (h : sch.reset s.sched = .ok sc) :
    reset sch cfg true s = (.ok (), { resetSelf cfg s with sched := sc }) := by
  have : sch.reset (resetSelf cfg s).sched = .ok sc := h
  simp [reset, this]

theorem reset_error {sch : ISched S (FlowBatch F)} {cfg : Cfg} {s : St S F O} {e : Exc} (h : sch.reset s.sched = .error e) :
    reset sch cfg true s = (.error e, resetSelf cfg s) := by
  have : sch.reset (resetSelf cfg s).sched = .error e := h
  simp [reset, this]

theorem nextEpisode_ok {sch : ISched S (FlowBatch F)} {s : St S F O} {e} {sc : S} (he : sch.episodic = some e)
    (h : e.2 s.sched = .ok sc) : nextEpisode sch s = (.ok (), { s with sched := sc }) := by
  simp [nextEpisode, he, h]

theorem nextEpisode_error {sch : ISched S (FlowBatch F)} {s : St S F O} {e} {x : Exc} (he : sch.episodic = some e)
    (h : e.2 s.sched = .error x) : nextEpisode sch s = (.error x, s) := by
  simp [nextEpisode, he, h]

/-- State after `n` image batches, when the scheduler has delivered `bs`. -/
structure After (sch : ISched S (FlowBatch F)) (g : Gen F O I) (cfg : Cfg) (s0 : S) (n : Nat) (bs : List (FlowBatch F))
    (s : St S F O) : Prop where
  draws : Draws sch cfg.ffpb s0 bs s.sched
  rng : s.rng = Nat.repeat (fun k => .sub k 2 0) n (.seed cfg.seed)
  start : n = 0 → s.cur = none ∧ bs = []
  last : 0 < n → ∃ b, bs[(n - 1) / cfg.bpfb]? = some b ∧ b.flows.length % cfg.ndevices = 0 ∧
    s.cur = some (adaptAll g cfg b.flows).2 ∧ s.outFlows = (adaptAll g cfg b.flows).1 ∧ s.mask = b.mask ∧ s.files = b.files ∧
    bs.length = (n - 1) / cfg.bpfb + 1 ∧ s.generated = (n - 1) % cfg.bpfb + 1

theorem div_mod_step {n k : Nat} (hn : 0 < n) (h : (n - 1) % k + 1 < k) :
    n / k = (n - 1) / k ∧ n % k = (n - 1) % k + 1 := by
  have h1 := Nat.div_add_mod (n - 1) k
  have h2 : n = k * ((n - 1) / k) + ((n - 1) % k + 1) := by omega
  constructor
  · rw [h2]
    rw [Nat.mul_add_div (by omega), Nat.div_eq_of_lt h]
    rw [← h2]
    rfl
  · conv_lhs => rw [h2]
    rw [Nat.mul_add_mod, Nat.mod_eq_of_lt h]

theorem div_mod_wrap {n k : Nat} (hn : 0 < n) (hk : 0 < k) (h : k ≤ (n - 1) % k + 1) :
    n / k = (n - 1) / k + 1 ∧ n % k = 0 := by
  have h1 := Nat.div_add_mod (n - 1) k
  have h3 := Nat.mod_lt (n - 1) hk
  have h2 : n = k * ((n - 1) / k + 1) := by rw [Nat.mul_add]; omega
  constructor
  · conv_lhs => rw [h2]
    rw [Nat.mul_div_cancel_left _ hk]
  · conv_lhs => rw [h2]
    exact Nat.mul_mod_right _ _

theorem repeat_succ {α : Type} (f : α → α) (n : Nat) (a : α) : Nat.repeat f (n + 1) a = f (Nat.repeat f n a) := rfl

theorem After.step {sch : ISched S (FlowBatch F)} {g : Gen F O I} {cfg : Cfg} (hc : cfg.OK) (hfull : FullBatches sch)
    {s0 : S} {n : Nat} {bs : List (FlowBatch F)} {s s' : St S F O} {x : OutBatch O I} (h : After sch g cfg s0 n bs s)
    (hx : next sch g cfg s = some (.ok x, s')) :
    ∃ bs' b, bs <+: bs' ∧ After sch g cfg s0 (n + 1) bs' s' ∧ bs'[n / cfg.bpfb]? = some b ∧
      MadeFrom g cfg (batchKey cfg.seed n) b x := by
  obtain ⟨_, hcase⟩ := next_ok hx
  have hk := hc.bpfb
  rcases hcase with ⟨fl, hcur, hgen, hdv, rfl, rfl⟩ | ⟨hcur, b, sc, hb, hdv, rfl, rfl⟩
  · rcases Nat.eq_zero_or_pos n with hn | hn
    · rw [(h.start hn).1] at hcur; simp at hcur
    obtain ⟨b, hb, hbd, h1, h2, h3, h4, h5, h6⟩ := h.last hn
    rw [h6] at hgen
    obtain ⟨hd1, hd2⟩ := div_mod_step hn hgen
    refine ⟨bs, b, List.prefix_rfl, ⟨h.draws, ?_, by omega, fun _ => ?_⟩, by rw [hd1]; exact hb, ?_⟩
    · rw [repeat_succ, ← h.rng]; rfl
    · simp only [Nat.add_sub_cancel]
      exact ⟨b, by rw [hd1]; exact hb, hbd, h1, h2, h3, h4, by rw [hd1]; exact h5, by rw [hd2, h6]⟩
    · have hfb : b.flows.length = cfg.ffpb := by
        have : ∀ {s bs s'}, Draws sch cfg.ffpb s bs s' → ∀ b ∈ bs, b.flows.length = cfg.ffpb := by
          intro s bs s' hd
          induction hd with
          | nil => simp
          | cons hg _ ih =>
            intro b hb
            rcases List.mem_cons.mp hb with rfl | hb
            · exact hfull _ _ _ _ hg
            · exact ih b hb
        exact this h.draws b (List.mem_of_getElem? hb)
      rw [h1, Option.some_inj] at hcur
      rw [← hcur, h2, h3, h4]
      have hkey : s.rng.split2.2 = batchKey cfg.seed n := by rw [h.rng]; rfl
      rw [hkey]
      exact MadeFrom.of_images g cfg hc _ b (by rw [hfb]; exact hc.ffpb) hbd _
  · have hfb := hfull _ _ _ _ hb
    have hkey : s.rng.split2.2 = batchKey cfg.seed n := by rw [h.rng]; rfl
    have hidx : n / cfg.bpfb = bs.length ∧ n % cfg.bpfb = 0 := by
      rcases Nat.eq_zero_or_pos n with hn | hn
      · rw [(h.start hn).2, hn]; simp
      · obtain ⟨b', hb', _, h1, h2, h3, h4, h5, h6⟩ := h.last hn
        rcases hcur with hcur | hcur
        · rw [h1] at hcur; simp at hcur
        · rw [h6] at hcur
          obtain ⟨hd1, hd2⟩ := div_mod_wrap hn hk hcur
          exact ⟨by rw [hd1, h5], hd2⟩
    have hget : (bs ++ [b])[n / cfg.bpfb]? = some b := by rw [hidx.1]; simp
    refine ⟨bs ++ [b], b, List.prefix_append _ _, ⟨h.draws.snoc hb, ?_, by omega, fun _ => ?_⟩, hget, ?_⟩
    · rw [repeat_succ, ← h.rng]; rfl
    · simp only [Nat.add_sub_cancel]
      exact ⟨b, hget, hdv, rfl, rfl, rfl, rfl, by simp [hidx.1], by rw [hidx.2]⟩
    · rw [hkey]
      exact MadeFrom.of_images g cfg hc _ b (by rw [hfb]; exact hc.ffpb) hdv _

theorem run_cons {sch : ISched S (FlowBatch F)} {g : Gen F O I} {cfg : Cfg} {op : Op} {ops : List Op} {s s2 : St S F O}
    {outs : List (Out (OutBatch O I))} (h : run sch g cfg (op :: ops) s = some (outs, s2)) :
    ∃ o s1 os, step sch g cfg s op = some (o, s1) ∧ run sch g cfg ops s1 = some (os, s2) ∧ outs = o :: os := by
  unfold run at h
  cases hst : step sch g cfg s op with
  | none => rw [hst] at h; simp at h
  | some q =>
    obtain ⟨o, s1⟩ := q
    rw [hst] at h
    simp only at h
    cases hr : run sch g cfg ops s1 with
    | none => rw [hr] at h; simp at h
    | some q =>
      obtain ⟨os, s3⟩ := q
      rw [hr] at h
      simp only [Option.some.injEq, Prod.mk.injEq] at h
      obtain ⟨rfl, rfl⟩ := h
      exact ⟨o, s1, os, rfl, hr, rfl⟩

theorem step_next {sch : ISched S (FlowBatch F)} {g : Gen F O I} {cfg : Cfg} {s s' : St S F O} {o : Out (OutBatch O I)}
    (h : step sch g cfg s .next = some (o, s')) :
    ∃ r, next sch g cfg s = some (r, s') ∧ o = batchOut r := by
  unfold step at h
  cases hn : next sch g cfg s with
  | none => rw [hn] at h; simp at h
  | some q =>
    rw [hn] at h
    simp only [Option.map_some, Option.some.injEq, Prod.mk.injEq] at h
    exact ⟨q.1, by rw [← h.2], h.1.symm⟩

theorem After.run {sch : ISched S (FlowBatch F)} {g : Gen F O I} {cfg : Cfg} (hc : cfg.OK) (hfull : FullBatches sch)
    {s0 : S} : ∀ (m n : Nat) (bs : List (FlowBatch F)) (s s' : St S F O) (outs : List (Out (OutBatch O I))),
    After sch g cfg s0 n bs s → run sch g cfg (List.replicate m .next) s = some (outs, s') →
    (∀ o ∈ outs, ∃ x, o = .batch x) →
    ∃ bs', bs <+: bs' ∧ After sch g cfg s0 (n + m) bs' s' ∧ outs.length = m ∧
      ∀ j, j < m → ∃ x b, outs[j]? = some (.batch x) ∧ bs'[(n + j) / cfg.bpfb]? = some b ∧
        MadeFrom g cfg (batchKey cfg.seed (n + j)) b x
  | 0, n, bs, s, s', outs, h, hr, _ => by
    simp only [List.replicate_zero, Sampler.run, Option.some.injEq, Prod.mk.injEq] at hr
    obtain ⟨rfl, rfl⟩ := hr
    exact ⟨bs, List.prefix_rfl, h, rfl, by simp⟩
  | m + 1, n, bs, s, s', outs, h, hr, hall => by
    rw [List.replicate_succ] at hr
    obtain ⟨o, s1, os, hst, hrn, rfl⟩ := run_cons hr
    obtain ⟨x, rfl⟩ := hall o (by simp)
    obtain ⟨r, hnx, hor⟩ := step_next hst
    cases r with
    | error e => simp [batchOut] at hor
    | ok y =>
      simp only [batchOut, Out.batch.injEq] at hor
      subst hor
      obtain ⟨bs1, b, hp1, h1, hb, hm⟩ := h.step hc hfull hnx
      obtain ⟨bs2, hp2, h2, hl, hj⟩ := After.run hc hfull m (n + 1) bs1 s1 s' os h1 hrn (fun o ho => hall o (by simp [ho]))
      refine ⟨bs2, hp1.trans hp2, by rwa [show n + (m + 1) = n + 1 + m by omega], by simp [hl], ?_⟩
      intro j hjm
      cases j with
      | zero =>
        refine ⟨x, b, rfl, ?_, hm⟩
        obtain ⟨t, rfl⟩ := hp2
        rw [Nat.add_zero, List.getElem?_append_left]
        · exact hb
        · exact (List.getElem?_eq_some_iff.mp hb).1
      | succ j =>
        obtain ⟨y, c, h3, h4, h5⟩ := hj j (by omega)
        refine ⟨y, c, by simpa using h3, ?_, ?_⟩
        · rwa [show n + (j + 1) = n + 1 + j by omega]
        · rwa [show n + (j + 1) = n + 1 + j by omega]

theorem After.init (sch : ISched S (FlowBatch F)) (g : Gen F O I) (cfg : Cfg) (s0 : S) :
    After sch g cfg s0 0 [] (Sampler.init cfg s0 : St S F O) :=
  ⟨.nil _, rfl, fun _ => ⟨rfl, rfl⟩, by omega⟩

end Verif.Sampler
