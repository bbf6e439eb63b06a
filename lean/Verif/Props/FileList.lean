import Verif.Model.FileList
import Verif.Props.Base
import Verif.Props.Episodic
import Verif.Props.Prefetch
/-!
# Properties of assigning the file list (C93)
-/

namespace Verif.FileList
open Verif
variable {V D Key : Type}

/-! ## A base scheduler -/

/-- A history of batches only, in the form used by the properties of the base scheduler. -/
theorem run_batches (zero : V) (w : Base.World V D Key) (c : Base.Cfg) (fuel : Nat) : ∀ (ns : List Nat) (s : Base.St D Key),
    run (Base.sched zero w c fuel) (ns.map .batch) s = Base.runBatches zero w c fuel ns s
  | [], _ => rfl
  | n :: ns, s => by
    simp only [List.map_cons, run, Base.runBatches, Base.sched]
    cases h : Base.getBatch zero w c fuel n s with
    | none => rfl
    | some q =>
      simp only
      have := run_batches zero w c fuel ns q.2
      simp only [Base.sched] at this
      rw [this]
      cases Base.runBatches zero w c fuel ns q.2 <;> rfl

theorem run_append {S B : Type} (sch : Sched S B) : ∀ (a b : List Op) (s : S),
    run sch (a ++ b) s = (run sch a s).bind (fun q => (run sch b q.2).map (fun q' => (q.1 ++ q'.1, q'.2)))
  | [], b, s => by cases h : run sch b s <;> simp [run, h]
  | .batch n :: a, b, s => by
    simp only [List.cons_append, run]
    cases h : sch.getBatch n s with
    | none => rfl
    | some q =>
      simp only [run_append sch a b q.2]
      cases h1 : run sch a q.2 with
      | none => simp [h1]
      | some q1 =>
        simp only [Option.bind_some]
        cases h2 : run sch b q1.2 <;> simp [h2]
  | .reset :: a, b, s => by simp only [List.cons_append, run]; exact run_append sch a b _
  | .assign l :: a, b, s => by simp only [List.cons_append, run]; exact run_append sch a b _

/-- Without shuffling the key is never touched. -/
theorem run_key (zero : V) (w : Base.World V D Key) (c : Base.Cfg) (hc : c.randomize = false) (fuel : Nat) :
    ∀ (ops : List Op) (s s' : Base.St D Key) (rs : List (Except Exc (Base.Batch V))),
      run (Base.sched zero w c fuel) ops s = some (rs, s') → s'.key = s.key
  | [], s, s', rs, h => by simp only [run, Option.some.injEq, Prod.mk.injEq] at h; rw [h.2]
  | .batch n :: ops, s, s', rs, h => by
    simp only [run] at h
    split at h
    · cases h
    rename_i r s1 hb
    split at h
    · cases h
    rename_i rs' s2 hr
    simp only [Option.some.injEq, Prod.mk.injEq] at h
    have h1 := run_key zero w c hc fuel ops s1 s2 rs' hr
    obtain ⟨k, hk⟩ := Base.getBatch_later (zero := zero) (w := w) (cfg := c) (n := n) (fuel := fuel) hb
    rw [Base.shuffles_fixed w c hc, Prod.mk.injEq] at hk
    rw [← h.2, h1, hk.2]
  | .reset :: ops, s, s', rs, h => by
    have h1 := run_key zero w c hc fuel ops _ s' rs h
    rw [h1]
    simp [Base.sched, Base.reset, Base.shuffle, hc]
  | .assign l :: ops, s, s', rs, h => by
    simp only [run] at h
    rw [run_key zero w c hc fuel ops _ s' rs h]
    rfl

/-- **C93** for file schedulers: after any history, including failed batches and other
assignments, assigning a list and resetting makes the scheduler behave like one constructed with that list (and the same
options). If it shuffles, the new one has another key, namely the one the old one had arrived at. -/
theorem C93_base (zero : V) (w : Base.World V D Key) (c : Base.Cfg) (fuel : Nat) (fl : List String) (key : Key)
    (before : List Op) (rs : List (Except Exc (Base.Batch V))) (s : Base.St D Key)
    (h : run (Base.sched zero w c fuel) before (Base.init w c fl key) = some (rs, s)) (l : List String) :
    ∃ key', (c.randomize = false → key' = key) ∧ ∀ after : List Op,
      run (Base.sched zero w c fuel) (before ++ .assign l :: .reset :: after) (Base.init w c fl key) =
        (run (Base.sched zero w c fuel) after (Base.init w c l key')).map (fun q => (rs ++ q.1, q.2)) := by
  refine ⟨s.key, fun hc => ?_, fun after => ?_⟩
  · rw [run_key zero w c hc fuel _ _ _ _ h]
    simp [Base.init, Base.shuffle, hc]
  · rw [run_append, h]
    rfl

/-- **C93** for file schedulers that do not loop, in terms of data: whatever happened before, after the assignment and the
reset exactly the slices of the new files come, in the order of the list or in a shuffled one (a file directly after itself
counts once, see C01). -/
theorem C93_base_delivers (zero : V) (w : Base.World V D Key) (c : Base.Cfg) (hloop : c.loop = false)
    (hp : c.randomize = true → Base.PermOK w) (fuel : Nat) (fl : List String) (key : Key)
    (before : List Op) (rs : List (Except Exc (Base.Batch V))) (s : Base.St D Key)
    (h : run (Base.sched zero w c fuel) before (Base.init w c fl key) = some (rs, s))
    (l : List String) (cont : String → List (Base.Sample V)) (hy : ∀ p ∈ l, Base.Yields w p (cont p)) {fsh o1 o2 named}
    (hu : Base.Uniform (l.flatMap cont) fsh o1 o2 named) (hf : l.length < fuel) (ns : List Nat) :
    ∃ order outs s', order.Perm l ∧ (c.randomize = false → order = l) ∧
      run (Base.sched zero w c fuel) (before ++ .assign l :: .reset :: ns.map .batch) (Base.init w c fl key) =
        some (rs ++ outs, s') ∧
      outs.flatMap Base.delivered = (((Base.dropRepeats order).flatMap cont).take ns.sum).map Base.Sample.row := by
  obtain ⟨key', _, hafter⟩ := C93_base zero w c fuel fl key before rs s h l
  obtain ⟨outs, s', h1, h2⟩ := Base.C01_delivered_exactly zero w c hloop hp l key' cont hy hu ns fuel hf
  have horder : Base.passOrder w c l key' 0 = (Base.shuffle w c l key').1 := (Base.shuffles_order (D := D) w c l key' 0).symm
  refine ⟨Base.passOrder w c l key' 0, outs, s', ?_, ?_, ?_, h2⟩
  · rw [horder]; exact Base.shuffle_perm hp l key'
  · intro hc; simp [Base.passOrder, hc]
  · rw [hafter, run_batches, h1]
    rfl

/-- Served `a`, then told to serve `b` and `a`. -/
example : (run (Base.sched 0 Base.Demo.world ⟨false, false⟩ 7)
      ([.batch 1] ++ .assign ["b", "a"] :: .reset :: [.batch 2, .batch 2])
      (Base.init Base.Demo.world ⟨false, false⟩ ["a"] (.seed 0))).map (fun q => q.1.map (fun r => (Base.delivered r).map (·.file))) =
    some [[some "a"], [some "b", some "a"], [some "a"]] := rfl

/-! ## An episodic scheduler -/

/-- **C93 fails for episodic schedulers**, whatever the list: an assignment is forgotten at the next `reset()` or
`next_episode()`, which continue with the directories found at construction, exactly as if nothing had been assigned. -/
theorem C93_episodic_forgets (zero : V) (w : Base.World V D Key) (c : Base.Cfg) (fuel : Nat) {K : Type} (rng : Episodic.Rng K)
    (cfg : Episodic.Cfg) (e : Episodic.St (Base.St D Key) K) (l : List String) :
    Episodic.nextEpisode (Base.sched zero w c fuel) rng cfg (assignEpisodic (Base.sched zero w c fuel) l e) =
      Episodic.nextEpisode (Base.sched zero w c fuel) rng cfg e := rfl

/-- **C93 is false for episodic schedulers**: episodes of the directory `e` only are wanted; those of `d` are still served. -/
theorem C93_refuted_episodic : (match Episodic.init (Episodic.demoSched false) (Episodic.demoRng [0, 3]) Episodic.demoOS Episodic.demoGlob (some 2)
      (some 2) (Episodic.demoInner false ["d0", "e0"]) (.seed 1) with
    | .error _ => none
    | .ok (cfg, e) =>
      (Episodic.run (Episodic.demoSched false) (Episodic.demoRng [0, 3]) cfg [.restart, .getBatch 2]
        (assignEpisodic (Episodic.demoSched false) ["e0", "e1", "e2"] e)).map
        (fun q => q.1.map (fun o => match o with | .batch b => b.files | _ => none))) =
    some [none, some ["d0", "e1"]] := by decide +kernel

/-! ## A prefetching scheduler -/

/-- A step changes the wrapped scheduler only through its own methods. -/
theorem act_src {S B : Type} {p : Prefetch.Src S B} {cfg : Prefetch.Cfg} (P : S → Prop)
    (hg : ∀ s, P s → P (p.getBatch s).2) (hn : ∀ s, P s → P (p.nextEpisode s)) (hr : ∀ s, P s → P (p.reset s))
    {a : Prefetch.Action} {s s' : Prefetch.St S B} {o : Prefetch.Out B} (h : Prefetch.act p cfg a s = some (s', o))
    (hs : P s.src) : P s'.src := by
  have hstart : ∀ s : Prefetch.St S B, (Prefetch.startWorker s).src = s.src := by
    intro s; unfold Prefetch.startWorker; split <;> rfl
  cases a with
  | fetch =>
    simp only [Prefetch.act] at h
    split at h
    · simp only [Option.some.injEq] at h
      have h1 := hg _ hs
      unfold Prefetch.fetchStep at h
      split at h
      all_goals (rename_i hb; rw [hb] at h1)
      · cases h; exact h1
      · cases h; exact h1
      · split at h
        · cases h; exact hn _ h1
        · cases h; exact h1
      · cases h; exact h1
    · cases h
  | join =>
    simp only [Prefetch.act] at h
    repeat' split at h
    all_goals cases h
    exact hr _ hs
  | _ =>
    simp only [Prefetch.act] at h
    repeat' split at h
    all_goals first
      | (cases h; done)
      | (simp only [Option.some.injEq, Prod.mk.injEq] at h
         first
           | (rw [← h.1]; simp only [hstart]; exact hs)
           | (rw [← h.1]; exact hs))

theorem run_src {S B : Type} {p : Prefetch.Src S B} {cfg : Prefetch.Cfg} (P : S → Prop)
    (hg : ∀ s, P s → P (p.getBatch s).2) (hn : ∀ s, P s → P (p.nextEpisode s)) (hr : ∀ s, P s → P (p.reset s)) :
    ∀ (as : List Prefetch.Action) (s s' : Prefetch.St S B) (os : List (Prefetch.Out B)),
      Prefetch.run p cfg as s = some (s', os) → P s.src → P s'.src
  | [], s, s', os, h, hs => by
    simp only [Prefetch.run, Option.some.injEq, Prod.mk.injEq] at h; rw [← h.1]; exact hs
  | a :: as, s, s', os, h, hs => by
    simp only [Prefetch.run] at h
    split at h
    · cases h
    rename_i s1 o h1
    split at h
    · cases h
    rename_i s2 os' h2
    simp only [Option.some.injEq, Prod.mk.injEq] at h
    rw [← h.1]
    exact run_src P hg hn hr as s1 s2 os' h2 (act_src P hg hn hr h1 hs)

theorem shuffles_perm {w : Base.World V D Key} {c : Base.Cfg} (hp : c.randomize = true → Base.PermOK w) :
    ∀ (k : Nat) (x : List String × Key), (Base.shuffles w c x k).1.Perm x.1
  | 0, _ => List.Perm.refl _
  | k + 1, x => (shuffles_perm hp k _).trans (Base.shuffle_perm hp x.1 x.2)

/-- **C93** for a file scheduler behind a prefetching one: from any state of the two threads, under every schedule, once a `reset()` that
was called at any time after the assignment has returned, every batch that `get_batch` returns is, in order, what a file scheduler constructed
with the assigned list would produce (the list itself, or a permutation of it if the files are shuffled). -/
theorem C93_prefetch (zero : V) (w : Base.World V D Key) (c : Base.Cfg) (hp : c.randomize = true → Base.PermOK w) (fuel : Nat)
    (cfg : Prefetch.Cfg) (s : Prefetch.St (Base.St D Key) (Base.Batch V)) (l : List String)
    (as : List Prefetch.Action) (s1 s2 : Prefetch.St (Base.St D Key) (Base.Batch V)) (os : List (Prefetch.Out (Base.Batch V)))
    (o : Prefetch.Out (Base.Batch V))
    (h1 : Prefetch.run (Stack.plainSrc (Base.sched zero w c fuel) cfg.batchSize) cfg as
      (assignPrefetch (Base.sched zero w c fuel) l s) = some (s1, os))
    (h2 : Prefetch.act (Stack.plainSrc (Base.sched zero w c fuel) cfg.batchSize) cfg .join s1 = some (s2, o)) :
    ∃ l' key, l'.Perm l ∧ (c.randomize = false → l' = l) ∧ s2 = Prefetch.init (Base.init w c l' key) ∧
      ∀ as' s3 outs, (∀ a ∈ as', Prefetch.PlainUse a) →
        Prefetch.run (Stack.plainSrc (Base.sched zero w c fuel) cfg.batchSize) cfg as' s2 = some (s3, outs) →
        ∃ bs src k, Prefetch.Produces (Stack.plainSrc (Base.sched zero w c fuel) cfg.batchSize) (Base.init w c l' key) 0 bs src k ∧
          Prefetch.returned outs <+: bs.map Prod.snd := by
  have hinv := run_src (p := Stack.plainSrc (Base.sched zero w c fuel) cfg.batchSize) (cfg := cfg)
    (fun src => src.fileList.Perm l ∧ (c.randomize = false → src.fileList = l))
    (by
      rintro src ⟨ha, hb⟩
      simp only [Stack.plainSrc, Base.sched]
      cases hg : Base.getBatch zero w c fuel cfg.batchSize src with
      | none => exact ⟨ha, hb⟩
      | some q =>
        obtain ⟨k, hk⟩ := Base.getBatch_later (s' := q.2) (r := q.1) hg
        have hfl := congrArg Prod.fst hk
        simp only at hfl
        simp only [Option.getD_some, hfl]
        refine ⟨(shuffles_perm hp k _).trans ha, fun hc => ?_⟩
        rw [Base.shuffles_fixed w c hc]
        exact hb hc)
    (fun src h => h)
    (by
      rintro src ⟨ha, hb⟩
      simp only [Stack.plainSrc, Base.sched, Base.reset]
      refine ⟨(Base.shuffle_perm hp _ _).trans ha, fun hc => ?_⟩
      simp only [Base.shuffle, hc]
      exact hb hc)
    as _ s1 os h1 ⟨List.Perm.refl _, fun _ => rfl⟩
  obtain ⟨he, hplain⟩ := Prefetch.C28_reset_restarts _ cfg s1 s2 o h2
  refine ⟨s1.src.fileList, s1.src.key, hinv.1, hinv.2, he, ?_⟩
  intro as' s3 outs hok hr
  exact hplain as' s3 outs hok hr

/-- The worker has already fetched `a` when `b` is assigned; after the reset `b` comes. -/
example : ((Prefetch.run (Stack.plainSrc (Base.sched 0 Base.Demo.world ⟨false, false⟩ 7) 1) ⟨1, 2⟩
      [.get 1, .check, .fetch, .put, .take] (Prefetch.init (Base.init Base.Demo.world ⟨false, false⟩ ["a"] (.seed 0)))).bind
      (fun q => Prefetch.run (Stack.plainSrc (Base.sched 0 Base.Demo.world ⟨false, false⟩ 7) 1) ⟨1, 2⟩
        [.check, .fetch, .reset, .put, .resetDrain, .check, .join, .get 1, .check, .fetch, .put, .take]
        (assignPrefetch (Base.sched 0 Base.Demo.world ⟨false, false⟩ 7) ["b"] q.1))).map
      (fun q => (Prefetch.returned q.2).map (·.files)) = some [some ["b"]] := by decide +kernel

end Verif.FileList
