import Verif.Proofs.Append
import Verif.Props.Base
import Verif.Props.FileList
/-!
# C170: files can be added while the others are being served
-/

namespace Verif.Append
open Verif
open scoped List
variable {V D Key : Type}

/-- What a request shows when the samples `l` are handed out: `StopIteration` if there are none, otherwise a batch whose
flagged rows are those samples. -/
def Answers (l : List (Base.Sample V)) (r : Except Exc (Base.Batch V)) : Prop :=
  (l = [] → r = .error .stopIteration) ∧ (l ≠ [] → ∃ b, r = .ok b) ∧ Base.delivered r = l.map Base.Sample.row

theorem run_served (zero : V) (w : Base.World V D Key) (cfg : Base.Cfg) (hloop : cfg.loop = false) (fuel : Nat)
    (c : String → List (Base.Sample V)) {fsh o1 o2 named} :
    ∀ (es : List Ev) (s : Base.St D Key), Base.Inv w c s → Listed s → (s.fileList ++ added es).Nodup →
      (∀ p ∈ added es, Base.Yields w p (c p)) →
      Base.Uniform (Base.rem c s ++ (added es).flatMap c) fsh o1 o2 named → (s.fileList ++ added es).length < fuel →
      ∃ outs s', FileList.run (Base.sched zero w cfg fuel) (calls s.fileList es) s = some (outs, s') ∧
        List.Forall₂ Answers (served c (Base.rem c s) es) outs
  | [], s, _, _, _, _, _, _ => ⟨[], s, rfl, List.Forall₂.nil⟩
  | .batch n :: es, s, hi, hl, hn, hy, hu, hf => by
    obtain ⟨s1, h1, h2, h3, _, h5⟩ := Base.getBatch_nonloop zero hloop n s hi
    have hlen : s.fileList.length < fuel := by rw [List.length_append] at hf; omega
    have hg := h5 fuel hlen
    have hl1 := getBatch_listed hg hl
    obtain ⟨outs, s', g1, g2⟩ := run_served zero w cfg hloop fuel c es s1 h1 hl1 (by rw [h3]; exact hn) hy
      (by
        rw [h2]
        refine Base.uniform_sub hu ?_
        intro x hx
        rcases List.mem_append.mp hx with hx | hx
        · exact List.mem_append_left _ (List.mem_of_mem_drop hx)
        · exact List.mem_append_right _ hx) (by rw [h3]; exact hf)
    refine ⟨(if (Base.rem c s).take n = [] then .error .stopIteration else Base.assemble zero cfg ((Base.rem c s).take n) n) :: outs,
      s', ?_, ?_⟩
    · rw [h3] at g1
      have hsg : (Base.sched zero w cfg fuel).getBatch n s = Base.getBatch zero w cfg fuel n s := rfl
      simp only [calls, FileList.run, hsg, hg, g1]
    · rw [served]
      rw [h2] at g2
      refine List.Forall₂.cons ?_ g2
      by_cases h : (Base.rem c s).take n = []
      · rw [if_pos h]
        exact ⟨fun _ => rfl, fun h' => absurd h h', by rw [h]; rfl⟩
      · rw [if_neg h]
        obtain ⟨b, hb, _, hd⟩ := Base.assemble_uniform zero cfg h (n := n) (by simp) (by simp [hloop])
          (Base.uniform_sub hu (fun x hx => List.mem_append_left _ (List.mem_of_mem_take hx)))
        exact ⟨fun h' => absurd h' h, fun _ => ⟨b, hb⟩, by rw [hb, hd]⟩
  | .add more :: es, s, hi, hl, hn, hy, hu, hf => by
    simp only [added] at hn hy hu hf
    have hn' : (s.fileList ++ more ++ added es).Nodup := by rw [List.append_assoc]; exact hn
    have hnm := (List.nodup_append.mp (List.nodup_append.mp hn').1)
    have hrem := rem_append c s more hl hnm.2.1 (fun p hp hq => hnm.2.2 p hq p hp rfl)
    obtain ⟨outs, s', g1, g2⟩ := run_served zero w cfg hloop fuel c es { s with fileList := s.fileList ++ more }
      ⟨by
        intro p hp
        rcases List.mem_append.mp hp with hp | hp
        · exact hi.yields p hp
        · exact hy p (List.mem_append_left _ hp), hi.cache⟩
      ⟨fun q d hq => List.mem_append_left _ (hl.1 q d hq), by
        have := hl.2; simp only [List.length_append]; omega⟩
      hn' (fun p hp => hy p (List.mem_append_right _ hp))
      (by
        rw [hrem, List.append_assoc, ← List.flatMap_append]; exact hu)
      (by simp only [List.append_assoc]; exact hf)
    refine ⟨outs, s', g1, ?_⟩
    rw [hrem] at g2
    exact g2

/-- **C170** for file schedulers that do not loop: whatever sequence of requests and additions of new files is made, before or
after `StopIteration`, the scheduler behaves as a queue: each request takes the first samples still waiting, `StopIteration`
is raised exactly when none is waiting, and the samples of the added files come after those of the files before. -/
theorem C170_queue (zero : V) (w : Base.World V D Key) (cfg : Base.Cfg) (hloop : cfg.loop = false)
    (hp : cfg.randomize = true → Base.PermOK w) (fl : List String) (key : Key) (c : String → List (Base.Sample V)) (es : List Ev)
    (hn : (fl ++ added es).Nodup) (hy : ∀ p ∈ fl ++ added es, Base.Yields w p (c p)) {fsh o1 o2 named}
    (hu : Base.Uniform ((fl ++ added es).flatMap c) fsh o1 o2 named) (fuel : Nat) (hf : (fl ++ added es).length < fuel) :
    ∃ order outs s', order.Perm fl ∧ (cfg.randomize = false → order = fl) ∧
      FileList.run (Base.sched zero w cfg fuel) (calls order es) (Base.init w cfg fl key) = some (outs, s') ∧
      List.Forall₂ Answers (served c (order.flatMap c) es) outs := by
  have hperm : (Base.shuffle w cfg fl key).1.Perm fl := Base.shuffle_perm hp fl key
  have hperm' := hperm.append_right (added es)
  have hnodup : ((Base.shuffle w cfg fl key).1 ++ added es).Nodup := hperm'.nodup_iff.mpr hn
  have hrem : Base.rem c (Base.init w cfg fl key : Base.St D Key) = (Base.shuffle w cfg fl key).1.flatMap c := by
    rw [Base.rem_fresh _ rfl rfl]
    exact streamAfter_plain c _ none (List.nodup_append.mp hnodup).1 (fun p _ e => by cases e)
  obtain ⟨outs, s', h1, h2⟩ := run_served zero w cfg hloop fuel c (fsh := fsh) (o1 := o1) (o2 := o2) (named := named) es
    (Base.init w cfg fl key)
    (Base.inv_fresh (fun p hp' => hy p (List.mem_append_left _ (hperm.mem_iff.mp hp'))))
    ⟨(fun q d hq => by cases hq), Nat.zero_le _⟩ hnodup (fun p hp' => hy p (List.mem_append_right _ hp'))
    (by
      rw [hrem, ← List.flatMap_append]
      refine Base.uniform_sub hu ?_
      intro x hx
      obtain ⟨p, hp', hxp⟩ := List.mem_flatMap.mp hx
      exact List.mem_flatMap.mpr ⟨p, hperm'.mem_iff.mp hp', hxp⟩)
    (by
      have := hperm'.length_eq
      have h3 : (Base.init w cfg fl key : Base.St D Key).fileList = (Base.shuffle w cfg fl key).1 := rfl
      rw [h3, this]; exact hf)
  refine ⟨(Base.shuffle w cfg fl key).1, outs, s', hperm, ?_, h1, ?_⟩
  · intro hc; simp [Base.shuffle, hc]
  · rw [← hrem]; exact h2

/-- `a` is exhausted and `StopIteration` raised; `b` is added and served. -/
example : (FileList.run (Base.sched 0 Base.Demo.world ⟨false, false⟩ 7)
      (calls ["a"] [.batch 4, .batch 1, .add ["b"], .batch 1, .batch 1])
      (Base.init Base.Demo.world ⟨false, false⟩ ["a"] (.seed 0))).map (fun q => q.1.map (fun r => (Base.delivered r).map (·.file))) =
    some [[some "a", some "a"], [], [some "b"], []] := rfl

theorem loopStream_plain (w : Base.World V D Key) (cfg : Base.Cfg) (hp : cfg.randomize = true → Base.PermOK w)
    (c : String → List (Base.Sample V)) (s : Base.St D Key) (hn : s.fileList.Nodup) (K : Nat) :
    ∃ passes : List (List String), passes.length = K ∧ (∀ o ∈ passes, o.Perm s.fileList ∧ (cfg.randomize = false → o = s.fileList)) ∧
      Base.loopStream w cfg c s K = Base.rem c s ++ passes.flatMap (fun o => o.flatMap c) := by
  refine ⟨(List.range K).map (fun k => (Base.shuffles w cfg (s.fileList, s.key) (k + 1)).1), by simp, ?_, ?_⟩
  · intro o ho
    obtain ⟨k, _, rfl⟩ := List.mem_map.mp ho
    refine ⟨FileList.shuffles_perm hp (k + 1) (s.fileList, s.key), fun hc => ?_⟩
    rw [Base.shuffles_fixed w cfg hc]
  · unfold Base.loopStream
    rw [List.flatMap_map]
    congr 1
    refine List.flatMap_congr ?_
    intro k _
    refine streamAfter_plain c _ none ?_ (fun p _ e => by cases e)
    exact (FileList.shuffles_perm hp (k + 1) (s.fileList, s.key)).nodup_iff.mpr hn

/-- **C170** for file schedulers that loop: after any requests, files are added; what was left of the pass in progress is served
first, then the added files, and all later passes go through the longer list. No request fails. -/
theorem C170_loop (zero : V) (w : Base.World V D Key) (cfg : Base.Cfg) (hloop : cfg.loop = true)
    (hp : cfg.randomize = true → Base.PermOK w) (fl more : List String) (key : Key) (c : String → List (Base.Sample V))
    (hn : (fl ++ more).Nodup) (hy : ∀ p ∈ fl ++ more, Base.Yields w p (c p)) {fsh o1 o2 named}
    (hu : Base.Uniform ((fl ++ more).flatMap c) fsh o1 o2 named) (hne : ∃ p ∈ fl, c p ≠ [])
    (fuel : Nat) (hf : 2 * (fl ++ more).length ≤ fuel) (ns ms : List Nat) (hns : ∀ n ∈ ns, 0 < n) (hms : ∀ n ∈ ms, 0 < n) :
    ∃ order outs1 outs2 s', order.Perm fl ∧ (cfg.randomize = false → order = fl) ∧
      FileList.run (Base.sched zero w cfg fuel) (ns.map .batch ++ .assign (order ++ more) :: ms.map .batch) (Base.init w cfg fl key) =
        some (outs1 ++ outs2, s') ∧
      outs1.length = ns.length ∧ (∀ r ∈ outs1 ++ outs2, ∃ b, r = .ok b) ∧
      ∃ (passes later : List (List String)) (rest : List (Base.Sample V)),
        (∀ o ∈ passes, o.Perm fl ∧ (cfg.randomize = false → o = fl)) ∧
        outs1.flatMap Base.delivered ++ rest.map Base.Sample.row = (passes.flatMap (fun o => o.flatMap c)).map Base.Sample.row ∧
        rest <+ order.flatMap c ∧
        (∀ o ∈ later, o.Perm (fl ++ more) ∧ (cfg.randomize = false → o = fl ++ more)) ∧
        ms.sum ≤ (rest ++ more.flatMap c ++ later.flatMap (fun o => o.flatMap c)).length ∧
        outs2.flatMap Base.delivered =
          ((rest ++ more.flatMap c ++ later.flatMap (fun o => o.flatMap c)).take ms.sum).map Base.Sample.row := by
  have hperm0 : (Base.shuffle w cfg fl key).1.Perm fl := Base.shuffle_perm hp fl key
  have hfl0 : (Base.init w cfg fl key : Base.St D Key).fileList = (Base.shuffle w cfg fl key).1 := rfl
  have hnfl : fl.Nodup := (List.nodup_append.mp hn).1
  have hi0 : Base.Inv w c (Base.init w cfg fl key : Base.St D Key) :=
    Base.inv_fresh (fun p hp' => hy p (List.mem_append_left _ (hperm0.mem_iff.mp hp')))
  have hne0 : ∃ p ∈ (Base.init w cfg fl key : Base.St D Key).fileList, c p ≠ [] := by
    obtain ⟨p, h1, h2⟩ := hne
    exact ⟨p, hperm0.mem_iff.mpr h1, h2⟩
  obtain ⟨xs, s1, j, a1, a2, a3, a4, a5⟩ := Base.runBatches_loop zero hloop hp ns (Base.init w cfg fl key) hns hi0 hne0
  have a3' : s1.fileList.Perm fl := a3.trans hperm0
  have hlen0 : (Base.init w cfg fl key : Base.St D Key).fileList.length = fl.length := hperm0.length_eq
  have hrun1 := a5 fuel (by rw [hlen0]; rw [List.length_append] at hf; omega)
  have hl1 : Listed s1 := runBatches_listed ns _ s1 _ hrun1 ⟨(fun q d hq => by cases hq), Nat.zero_le _⟩
  have hfix : cfg.randomize = false → s1.fileList = fl := by
    intro hc
    have := runBatches_fileList hc ns (Base.init w cfg fl key) s1 _ hrun1
    rw [this]; simp [Base.init, Base.shuffle, hc]
  -- after the addition
  have hperm1 : (s1.fileList ++ more).Perm (fl ++ more) := a3'.append_right more
  have hn1 : (s1.fileList ++ more).Nodup := hperm1.nodup_iff.mpr hn
  have hnd := List.nodup_append.mp hn1
  have hrem := rem_append c s1 more hl1 hnd.2.1 (fun p hp' hq => hnd.2.2 p hq p hp' rfl)
  have hi1 : Base.Inv w c ({ s1 with fileList := s1.fileList ++ more } : Base.St D Key) :=
    ⟨fun p hp' => hy p (hperm1.mem_iff.mp hp'), a2.cache⟩
  obtain ⟨ys, s2, j2, b1, b2, b3, b4, b5⟩ := Base.runBatches_loop zero hloop hp ms { s1 with fileList := s1.fileList ++ more } hms hi1
    (by
      obtain ⟨p, h1, h2⟩ := hne
      exact ⟨p, List.mem_append_left _ (a3'.mem_iff.mpr h1), h2⟩)
  have hrun2 := b5 fuel (by
    have := hperm1.length_eq
    show 2 * (s1.fileList ++ more).length ≤ fuel
    rw [this]; exact hf)
  obtain ⟨passes, p1, p2, p3⟩ := loopStream_plain w cfg hp c (Base.init w cfg fl key) (hfl0 ▸ hperm0.nodup_iff.mpr hnfl) j
  obtain ⟨later, q1, q2, q3⟩ := loopStream_plain w cfg hp c { s1 with fileList := s1.fileList ++ more } hn1 j2
  have e1 := a4 0
  have e2 := b4 0
  simp only [Nat.zero_add, Base.loopStream, List.range_zero, List.flatMap_nil, List.append_nil] at e1 e2
  rw [← Base.loopStream, p3] at e1
  rw [← Base.loopStream, q3, hrem] at e2
  have hrem0 : Base.rem c (Base.init w cfg fl key : Base.St D Key) = (Base.shuffle w cfg fl key).1.flatMap c := by
    rw [Base.rem_fresh _ rfl rfl]
    exact streamAfter_plain c _ none (hperm0.nodup_iff.mpr hnfl) (fun p _ e => by cases e)
  rw [hrem0] at e1
  have hall : ∀ (os : List (List String)) (L : List String), (∀ o ∈ os, o.Perm L) →
      ∀ x ∈ os.flatMap (fun o => o.flatMap c), x ∈ L.flatMap c := by
    intro os L h x hx
    obtain ⟨o, ho, hxo⟩ := List.mem_flatMap.mp hx
    obtain ⟨p, hpo, hxp⟩ := List.mem_flatMap.mp hxo
    exact List.mem_flatMap.mpr ⟨p, (h o ho).mem_iff.mp hpo, hxp⟩
  have hmore : ∀ x ∈ fl.flatMap c, x ∈ (fl ++ more).flatMap c := by
    intro x hx; rw [List.flatMap_append]; exact List.mem_append_left _ hx
  have hpasses : ∀ o ∈ (Base.shuffle w cfg fl key).1 :: passes, o.Perm fl ∧ (cfg.randomize = false → o = fl) := by
    intro o ho
    rcases List.mem_cons.mp ho with rfl | ho
    · exact ⟨hperm0, fun hc => by simp [Base.shuffle, hc]⟩
    · exact ⟨(p2 o ho).1.trans hperm0, fun hc => by rw [(p2 o ho).2 hc, hfl0]; simp [Base.shuffle, hc]⟩
  have hlater : ∀ o ∈ later, o.Perm (fl ++ more) ∧ (cfg.randomize = false → o = fl ++ more) := by
    intro o ho
    exact ⟨(q2 o ho).1.trans hperm1, fun hc => by rw [(q2 o ho).2 hc, hfix hc]⟩
  have hux : Base.Uniform xs fsh o1 o2 named := Base.uniform_sub hu (fun x hx => hmore x (by
    have hx' : x ∈ ((Base.shuffle w cfg fl key).1 :: passes).flatMap (fun o => o.flatMap c) := by
      rw [List.flatMap_cons, e1]; exact List.mem_append_left _ hx
    exact hall _ fl (fun o ho => (hpasses o ho).1) x hx'))
  have huy : Base.Uniform ys fsh o1 o2 named := Base.uniform_sub hu (fun x hx => by
    have hx' : x ∈ Base.rem c s1 ++ more.flatMap c ++ later.flatMap (fun o => o.flatMap c) := by
      rw [e2]; exact List.mem_append_left _ hx
    rcases List.mem_append.mp hx' with h | h
    · rcases List.mem_append.mp h with h | h
      · have := (rem_sublist c s1).subset h
        obtain ⟨p, hp', hxp⟩ := List.mem_flatMap.mp this
        exact List.mem_flatMap.mpr ⟨p, List.mem_append_left _ (a3'.mem_iff.mp hp'), hxp⟩
      · rw [List.flatMap_append]; exact List.mem_append_right _ h
    · exact hall _ _ (fun o ho => (hlater o ho).1) x h)
  obtain ⟨d1, d2⟩ := Base.delivered_takeBatches_loop zero cfg ns xs hns a1 hux
  obtain ⟨d3, d4⟩ := Base.delivered_takeBatches_loop zero cfg ms ys hms b1 huy
  refine ⟨s1.fileList, (Base.takeBatches xs ns).zipWith (fun l n => Base.assemble zero cfg l n) ns,
    (Base.takeBatches ys ms).zipWith (fun l n => Base.assemble zero cfg l n) ms, s2, a3', hfix, ?_, ?_, ?_, (Base.shuffle w cfg fl key).1 :: passes, later, Base.rem c s1, hpasses, ?_,
    rem_sublist c s1, hlater, ?_, ?_⟩
  · rw [FileList.run_append, FileList.run_batches, hrun1]
    simp only [Option.bind_some, FileList.run]
    have hset : (Base.sched zero w cfg fuel).setFileList (s1.fileList ++ more) s1 = { s1 with fileList := s1.fileList ++ more } := rfl
    rw [hset, FileList.run_batches, hrun2]
    rfl
  · have ht : ∀ (l : List (Base.Sample V)) (ns : List Nat), (Base.takeBatches l ns).length = ns.length := by
      intro l ns
      induction ns generalizing l with
      | nil => rfl
      | cons n ns ih => simp [Base.takeBatches, ih]
    simp [ht]
  · intro r hr
    rcases List.mem_append.mp hr with hr | hr
    · obtain ⟨b, hb, _⟩ := d2 r hr; exact ⟨b, hb⟩
    · obtain ⟨b, hb, _⟩ := d4 r hr; exact ⟨b, hb⟩
  · rw [d1, ← List.map_append, ← e1, List.flatMap_cons]
  · rw [e2, List.length_append, b1]; omega
  · rw [d3, e2, ← b1, List.take_left]

/-- `a` is half served when `b` is added. -/
example : (FileList.run (Base.sched 0 Base.Demo.world ⟨true, false⟩ 9)
      ([1].map .batch ++ .assign (["a"] ++ ["b"]) :: [2, 3].map .batch)
      (Base.init Base.Demo.world ⟨true, false⟩ ["a"] (.seed 0))).map (fun q => q.1.map (fun r => (Base.delivered r).map (·.file))) =
    some [[some "a"], [some "a", some "b"], [some "a", some "a", some "b"]] := rfl

/-! ## Behind a prefetching scheduler -/

theorem act_ended {S B : Type} {p : Prefetch.Src S B} {cfg : Prefetch.Cfg} {a : Prefetch.Action} (ha : a ≠ .join)
    {s s' : Prefetch.St S B} {o : Prefetch.Out B} (h : Prefetch.act p cfg a s = some (s', o)) (hs : s.started = true)
    (hw : s.w.ended = true) : s'.started = true ∧ s'.w.ended = true ∧ s'.src = s.src ∧
      (Prefetch.returned [o] ++ s'.queue.reduceOption) <+ s.queue.reduceOption := by
  have hstart : Prefetch.startWorker s = s := by simp [Prefetch.startWorker, hs]
  have hsub : ∀ (x : Option B) (q : List (Option B)), q.reduceOption <+ (x :: q).reduceOption := by
    intro x q
    cases x
    · exact List.Sublist.refl _
    · exact List.sublist_cons_self _ _
  cases a with
  | check | fetch | put | eosPut | eosTimeout | eosForce | eosStop =>
    simp only [Prefetch.act] at h
    split at h
    · rename_i hpc; rw [hpc] at hw; cases hw
    · cases h
  | join => exact absurd rfl ha
  | shutPut =>
    simp only [Prefetch.act] at h
    split at h
    · simp only [Option.some.injEq, Prod.mk.injEq] at h
      obtain ⟨rfl, rfl⟩ := h
      refine ⟨hs, hw, rfl, ?_⟩
      simp only [Prefetch.returned, List.filterMap_cons, List.filterMap_nil, List.nil_append]
      split
      · simp [List.reduceOption, List.filterMap_append]
      · exact List.Sublist.refl _
    · cases h
  | _ =>
    simp only [Prefetch.act, hstart] at h
    repeat' split at h
    all_goals first
      | (cases h; done)
      | (simp only [Option.some.injEq, Prod.mk.injEq] at h
         obtain ⟨rfl, rfl⟩ := h
         refine ⟨hs, hw, rfl, ?_⟩
         simp only [Prefetch.returned, List.filterMap_cons, List.filterMap_nil, List.nil_append]
         first
           | exact List.Sublist.refl _
           | (rename_i hq; rw [hq]; first | exact List.Sublist.refl _ | exact hsub _ _)
           | (rename_i hq _; rw [hq]; first | exact List.Sublist.refl _ | exact hsub _ _)
           | (simp_all [List.reduceOption]; done))

/-- **C170 fails for prefetching schedulers**, whatever is assigned: once the worker thread has ended (which it does after the
end-of-stream signal, or when the wrapped scheduler raises), no file that is added is ever looked at, under any schedule and
whatever is called, until `reset()` starts again with the first file. Only the batches still in the buffer can come. -/
theorem C170_prefetch_forgets {V D Key : Type} (zero : V) (w : Base.World V D Key) (c : Base.Cfg) (fuel : Nat) (cfg : Prefetch.Cfg)
    (s : Prefetch.St (Base.St D Key) (Base.Batch V)) (hs : s.started = true) (hw : s.w.ended = true) (l : List String)
    (as : List Prefetch.Action) (hno : Prefetch.Action.join ∉ as) (s' : Prefetch.St (Base.St D Key) (Base.Batch V))
    (outs : List (Prefetch.Out (Base.Batch V)))
    (h : Prefetch.run (Stack.plainSrc (Base.sched zero w c fuel) cfg.batchSize) cfg as
      (FileList.assignPrefetch (Base.sched zero w c fuel) l s) = some (s', outs)) :
    s'.src = { s.src with fileList := l } ∧ Prefetch.returned outs <+ s.queue.reduceOption := by
  have key : ∀ (as : List Prefetch.Action), Prefetch.Action.join ∉ as → ∀ (s s' : Prefetch.St (Base.St D Key) (Base.Batch V)) outs,
      s.started = true → s.w.ended = true →
      Prefetch.run (Stack.plainSrc (Base.sched zero w c fuel) cfg.batchSize) cfg as s = some (s', outs) →
      s'.src = s.src ∧ Prefetch.returned outs <+ s.queue.reduceOption := by
    intro as
    induction as with
    | nil =>
      intro _ s s' outs _ _ h
      simp only [Prefetch.run, Option.some.injEq, Prod.mk.injEq] at h
      obtain ⟨rfl, rfl⟩ := h
      exact ⟨rfl, List.nil_sublist _⟩
    | cons a as ih =>
      intro hno s s' outs hs hw h
      simp only [List.mem_cons, not_or] at hno
      simp only [Prefetch.run] at h
      split at h
      · cases h
      rename_i s1 o h1
      split at h
      · cases h
      rename_i s2 os h2
      simp only [Option.some.injEq, Prod.mk.injEq] at h
      obtain ⟨rfl, rfl⟩ := h
      obtain ⟨a1, a2, a3, a4⟩ := act_ended (fun e => hno.1 e.symm) h1 hs hw
      obtain ⟨b1, b2⟩ := ih hno.2 s1 s2 os a1 a2 h2
      refine ⟨b1.trans a3, ?_⟩
      have hcons : Prefetch.returned (o :: os) = Prefetch.returned [o] ++ Prefetch.returned os := by
        unfold Prefetch.returned
        rw [← List.filterMap_append]; rfl
      rw [hcons]
      exact (List.Sublist.append (List.Sublist.refl _) b2).trans a4
  exact key as hno (FileList.assignPrefetch (Base.sched zero w c fuel) l s) s' outs hs hw h

/-- **C170 is false for prefetching schedulers**: `a` has been served and the worker has ended; `b` is added, and `StopIteration`
is raised. The same calls on the file scheduler itself serve `b` (above). -/
theorem C170_refuted_prefetch : ∃ s outs, Prefetch.run (Stack.plainSrc (Base.sched 0 Base.Demo.world ⟨false, false⟩ 7) 2) ⟨2, 2⟩
      [.get 2, .check, .fetch, .put, .take, .check, .fetch, .eosPut, .eosStop, .get 2, .take]
      (Prefetch.init (Base.init Base.Demo.world ⟨false, false⟩ ["a"] (.seed 0))) = some (s, outs) ∧
    (Prefetch.returned outs).map (·.files) = [some ["a", "a"]] ∧ s.started = true ∧ s.w.ended = true ∧ s.src.fileList = ["a"] ∧
    ((Prefetch.run (Stack.plainSrc (Base.sched 0 Base.Demo.world ⟨false, false⟩ 7) 2) ⟨2, 2⟩ [.get 2, .timeout]
      (FileList.assignPrefetch (Base.sched 0 Base.Demo.world ⟨false, false⟩ 7) ["a", "b"] s)).map (·.2)) =
      some [.tau, .stop true] := by
  refine ⟨_, _, rfl, ?_⟩
  decide +kernel

/-- **C170 is false for a file that was the last one**: it is not served again. (The other half of the reason for the
restriction to new files, see C01.) -/
theorem C170_refuted_again : ∃ r s, FileList.run (Base.sched 0 Base.Demo.world ⟨false, false⟩ 7) (calls ["a"] [.batch 2, .add ["a"], .batch 2])
      (Base.init Base.Demo.world ⟨false, false⟩ ["a"] (.seed 0)) = some ([r, .error .stopIteration], s) ∧
    (Base.delivered r).map (·.file) = [some "a", some "a"] := ⟨_, _, rfl, rfl⟩

end Verif.Append
