import Verif.Props.ForLoop
import Verif.Props.Buffered
import Verif.Props.BufferedEpisodes
/-!
# C126: `for` statements over samplers with a buffer
-/

namespace Verif.ForLoop
open Verif Verif.Whole Verif.Whole.Spec

/-- A `for` statement without `break` over a sampler whose calls may show one thing or another can run its body for exactly the batches `xs` and be left
by `e`. -/
def CanLoop {B : Type} (shows : List Sampler.Op → List (Sampler.Out B) → Prop) (xs : List B) (e : Exc) : Prop :=
  shows (List.replicate (xs.length + 1) .next) (xs.map .batch ++ [.raised e])

/-- The same, if what a list of calls shows is determined. -/
theorem loops_iff {B : Type} (run : List Sampler.Op → Option (List (Sampler.Out B))) (xs : List B) (e : Exc) :
    Loops (nexts run) xs e ↔ run (List.replicate (xs.length + 1) .next) = some (xs.map .batch ++ [.raised e]) := by
  unfold Loops nexts
  have key : ∀ (outs : List (Sampler.Out B)) (ys : List B), outs.mapM (fun o =>
      match o with | .batch b => some (.ok b) | .raised e => some (.error e) | .done => none) = some (ys.map (Except.ok (ε := Exc)) ++ [.error e]) ↔
      outs = ys.map .batch ++ [.raised e] := by
    intro outs
    induction outs with
    | nil => intro ys; cases ys <;> simp
    | cons o outs ih =>
      intro ys
      rw [List.mapM_cons]
      cases ys with
      | nil =>
        cases o with
        | batch b => simp [Option.bind_eq_some_iff]
        | done => simp
        | raised e' =>
          cases outs with
          | nil => simp
          | cons p outs =>
            simp only [Option.pure_def, Option.bind_eq_bind, Option.bind_some, List.map_nil, List.nil_append, List.cons.injEq,
              List.cons_ne_nil, and_false, reduceCtorEq, iff_false, List.mapM_cons]
            simp [Option.bind_eq_some_iff]
      | cons y ys =>
        cases o with
        | done => simp
        | raised e' => simp [Option.bind_eq_some_iff]
        | batch b =>
          simp only [Option.pure_def, Option.bind_eq_bind, Option.bind_some, Option.bind_eq_some_iff, List.map_cons, List.cons_append,
            List.cons.injEq, Sampler.Out.batch.injEq, Option.some.injEq, Except.ok.injEq]
          rw [← ih ys]
          constructor
          · rintro ⟨a, h, rfl, rfl⟩; exact ⟨rfl, h⟩
          · rintro ⟨rfl, h⟩; exact ⟨_, h, rfl, rfl⟩
  cases run (List.replicate (xs.length + 1) .next) with
  | none => simp
  | some outs => simp only [Option.bind_some, Option.some.injEq]; exact key outs xs

/-- The general step: a relation whose outcomes are those of a function, up to a change of each batch, and of which there are always some. -/
theorem canLoop_iff {B : Type} (shows : List Sampler.Op → List (Sampler.Out B) → Prop) (run : List Sampler.Op → Option (List (Sampler.Out B)))
    (φ : B → B) (φ' : Sampler.Out B → Sampler.Out B) (h1 : ∀ b, φ' (.batch b) = .batch (φ b)) (h2 : ∀ e, φ' (.raised e) = .raised e) (h3 : φ' .done = .done)
    (some_ : ∀ k, ∃ outs, shows (List.replicate (k + 1) .next) outs)
    (all : ∀ k outs, shows (List.replicate (k + 1) .next) outs → ∃ outs', run (List.replicate (k + 1) .next) = some outs' ∧ outs = outs'.map φ')
    (xs : List B) (e : Exc) : CanLoop shows xs e ↔ ∃ xs', Loops (nexts run) xs' e ∧ xs = xs'.map φ := by
  have pre : ∀ (outs' : List (Sampler.Out B)) (ys : List B), ys.map Sampler.Out.batch ++ [.raised e] = outs'.map φ' →
      ∃ ys' : List B, outs' = ys'.map .batch ++ [.raised e] ∧ ys = ys'.map φ := by
    intro outs'
    induction outs' with
    | nil => intro ys h; cases ys <;> simp at h
    | cons o outs' ih =>
      intro ys h
      cases ys with
      | nil =>
        simp only [List.map_nil, List.nil_append, List.map_cons, List.cons.injEq] at h
        obtain ⟨ho, ht⟩ := h
        have : outs' = [] := List.map_eq_nil_iff.1 ht.symm
        subst this
        cases o with
        | batch b => rw [h1] at ho; cases ho
        | done => rw [h3] at ho; cases ho
        | raised e' => rw [h2] at ho; cases ho; exact ⟨[], rfl, rfl⟩
      | cons y ys =>
        simp only [List.map_cons, List.cons_append, List.cons.injEq] at h
        obtain ⟨ho, ht⟩ := h
        obtain ⟨ys', hy, rfl⟩ := ih ys ht
        cases o with
        | done => rw [h3] at ho; cases ho
        | raised e' => rw [h2] at ho; cases ho
        | batch b => rw [h1] at ho; cases ho; exact ⟨b :: ys', by rw [hy]; rfl, rfl⟩
  constructor
  · intro h
    obtain ⟨outs', hr, ho⟩ := all _ _ h
    obtain ⟨xs', hx, rfl⟩ := pre outs' xs ho
    refine ⟨xs', (loops_iff run xs' e).2 ?_, rfl⟩
    rw [List.length_map] at hr
    rw [hr, hx]
  · rintro ⟨xs', hl, rfl⟩
    have hr := (loops_iff run xs' e).1 hl
    obtain ⟨outs, ho⟩ := some_ xs'.length
    obtain ⟨outs', hr', rfl⟩ := all _ _ ho
    rw [hr] at hr'
    cases hr'
    unfold CanLoop
    rw [List.length_map]
    convert ho using 1
    simp [h1, h2, Function.comp_def]

/-- **C126** with a buffer, synthetic images (under the conditions of C119): whatever the interleaving of the worker with the calls, a `for` statement sees
the batches it would see without the buffer, and is left in the same way; and it can do so. Since Python 3.12 the absent `done` flags are `False`. -/
theorem C126_buffered (E : Env) (d d' : Make.Dict) (hs : SameBut d d') (n : Int) (hn : 0 < n)
    (hbuf : Make.Spec.NatOption d "buffer_size" n) (kind : Make.Kind) (hp : Plain d' kind false) (s' : Make.Smp)
    (h' : Make.make (world E) (.dict d') = .ok s') :
    ∃ s files rnd lp a m, Make.make (world E) (.dict d) = .ok s ∧ FilesOf E kind d' files ∧
      Make.Spec.ValueOr d' "randomize" (.bool false) (.bool rnd) ∧ Make.Spec.ValueOr d' "loop" (.bool true) (.bool lp) ∧ Configured E d' a ∧
      Synthetic.make E.fl E.fl32 a = .ok m ∧ Sizes a m.cfg ∧
      (a.ffpb = a.spec.batchSize → Sound E kind files lp → (rnd = true → ∀ k n, (E.perm k n).Perm (List.range n)) →
        ∀ fuel, 2 * files.length < fuel → ∀ modern xs e,
          CanLoop (fun ops outs => BufferedRuns E fuel modern ops s outs) xs e ↔
            ∃ xs', Loops (nexts (fun ops => synthRun E fuel ops s')) xs' e ∧
              xs = xs'.map (fun b => { b with done := Stack.flags modern m.cfg.batchSize b.done })) := by
  obtain ⟨s, files, rnd, lp, a, m, g1, g2, g3, g4, g5, g6, g7, g8⟩ := C119_synthetic_partial E d d' hs n hn hbuf kind hp s' h'
  refine ⟨s, files, rnd, lp, a, m, g1, g2, g3, g4, g5, g6, g7, fun k1 k2 k3 fuel k4 modern xs e => ?_⟩
  refine canLoop_iff _ _ _ (Stack.withDone (Stack.flags modern m.cfg.batchSize)) (fun _ => rfl) (fun _ => rfl) rfl ?_ ?_ xs e
  · exact fun k => (g8 k1 k2 k3 fuel k4 modern _).1
  · exact fun k outs ho => (g8 k1 k2 k3 fuel k4 modern _).2 (fun hm => by simp at hm) (fun _ hm => by simp at hm) outs ho

/-- Calls of `next` only, in both forms. -/
theorem nexts_realHistory {S V : Type} (sch : Sampler.ISched S (Base.Batch V)) (b : Nat) : ∀ (k : Nat) (s : S),
    nexts (fun ops => (Sampler.realHistory sch b ops s).map Prod.fst) k = (Sampler.realRun sch b k s).map Prod.fst
  | 0, _ => rfl
  | k + 1, s => by
    have ih := nexts_realHistory sch b k
    unfold nexts at ih ⊢
    beta_reduce at ih ⊢
    rw [List.replicate_succ, Sampler.realHistory, Sampler.realRun, Sampler.realStep]
    cases Sampler.realNext sch b s with
    | none => rfl
    | some q =>
      obtain ⟨r, s'⟩ := q
      have := ih s'
      simp only [Option.map_some]
      cases hh : Sampler.realHistory sch b (List.replicate k .next) s' with
      | none =>
        rw [hh] at this
        cases hr : Sampler.realRun sch b k s' with
        | none => rfl
        | some x => rw [hr] at this; simp at this
      | some x =>
        rw [hh] at this
        simp only [Option.map_some, Option.bind_some] at this ⊢
        rw [List.mapM_cons, this]
        cases hr : Sampler.realRun sch b k s' with
        | none => cases r <;> rfl
        | some y => cases r <;> rfl

theorem nexts_realCalls (E : Env) (fuel k : Nat) (s : Make.Smp) : nexts (fun ops => realCalls E fuel ops s) k = realRun E fuel k s := by
  unfold realCalls realRun
  split
  · split
    · exact nexts_realHistory _ _ _ _
    · rfl
  · rfl

/-- **C126** with a buffer, images from MAT files. -/
theorem C126_real_buffered (E : Env) (d d' : Make.Dict) (hs : SameBut d d') (n : Int) (hn : 0 < n)
    (hbuf : Make.Spec.NatOption d "buffer_size" n) (hp : Plain d' .mat true) (s' : Make.Smp) (h' : Make.make (world E) (.dict d') = .ok s') :
    ∃ s files rnd lp k hh ww, Make.make (world E) (.dict d) = .ok s ∧ FilesOf E .mat d' files ∧
      Make.Spec.ValueOr d' "randomize" (.bool false) (.bool rnd) ∧ Make.Spec.ValueOr d' "loop" (.bool true) (.bool lp) ∧
      Has d' "batch_size" (IsInt (k : Nat)) ∧ 0 < k ∧ IsSize d' hh ww ∧
      ∀ content, RealPipeline.Contents E.mat hh ww files content → (lp = true → RealPipeline.pairsOf content files ≠ []) →
        (rnd = true → ∀ k n, (E.perm k n).Perm (List.range n)) → ∀ fuel, 2 * files.length < fuel → ∀ modern xs e,
          CanLoop (fun ops outs => BufferedReal E fuel modern ops s outs) xs e ↔
            ∃ xs', Loops (fun j => realRun E fuel j s') xs' e ∧
              xs = xs'.map (fun b => { b with done := Stack.flags modern k b.done }) := by
  obtain ⟨s, files, rnd, lp, k, hh, ww, g1, g2, g3, g4, g5, g6, g7, g8⟩ := C119_real_partial E d d' hs n hn hbuf hp s' h'
  refine ⟨s, files, rnd, lp, k, hh, ww, g1, g2, g3, g4, g5, g6, g7, fun content k1 k2 k3 fuel k4 modern xs e => ?_⟩
  simp only [← nexts_realCalls]
  refine canLoop_iff _ _ _ (Stack.withDoneReal (Stack.flags modern k)) (fun _ => rfl) (fun _ => rfl) rfl ?_ ?_ xs e
  · exact fun j => (g8 content k1 k2 k3 fuel k4 modern _).1
  · exact fun j outs ho => (g8 content k1 k2 k3 fuel k4 modern _).2 (fun hm => by simp at hm) (fun _ hm => by simp at hm) outs ho

/-- The sampler of `Props/Buffered.lean`, for which the other hypotheses are shown there, and that of the real images. -/
example (s' : Make.Smp) := C126_buffered demoEnv (("buffer_size", .int 2) :: demoEven) demoEven (sameBut_cons _ _) 2 (by decide)
  ⟨by decide, .inr ⟨_, rfl, rfl⟩⟩ .h5 ⟨rfl, .inl ⟨rfl, rfl⟩, ⟨by decide, .inl ⟨rfl, rfl⟩⟩, ⟨by decide, .inl ⟨rfl, rfl⟩⟩⟩ s'
example (s' : Make.Smp) := C126_real_buffered demoEnv (("buffer_size", .int 2) :: demoReal) demoReal (sameBut_cons _ _) 2 (by decide)
  ⟨by decide, .inr ⟨_, rfl, rfl⟩⟩ ⟨rfl, .inr rfl, ⟨by decide, .inl ⟨rfl, rfl⟩⟩, ⟨by decide, .inl ⟨rfl, rfl⟩⟩⟩ s'

/-- **C126** with episodes and a buffer, synthetic images (under the conditions of C121): a `for` statement sees what it sees without the buffer, and so is
left by `EpisodeEnd` after the steps of the episode (`C126_episodes_refuted`). -/
theorem C126_buffered_episodes (E : Env) (d d' : Make.Dict) (hs : SameBut d d') (n : Int) (hn : 0 < n) (hbuf : Make.Spec.NatOption d "buffer_size" n)
    (s' : Make.Smp) (h : Make.make (world E) (.dict d') = .ok s') (L : Nat) (hp : WithEpisodes d' false L)
    (hrnd : Make.Spec.ValueOr d' "randomize" (.bool false) (.bool false)) (hset : LeafDirs.SetIter E.os.iterSet) (hpil : Formats.PilOK E.mat) :
    ∃ s files dirs k a m, Make.make (world E) (.dict d) = .ok s ∧
      FilesOf E .mat d' files ∧ LeafDirsOf E files dirs ∧ Has d' "batch_size" (IsInt (k : Nat)) ∧ 0 < k ∧ Configured E d' a ∧
      Synthetic.make E.fl E.fl32 a = .ok m ∧
      (Ordinary E.mat (dirs.flatMap E.matFiles) → ∃ content, MatContents E.mat 256 256 (dirs.flatMap E.matFiles) content ∧
        ((∀ p ∈ dirs.flatMap E.matFiles, content p ≠ []) → Episodic.ChoiceOK (Key := KeyTerm) ⟨KeyTerm.split2, E.choice⟩ → m.cfg.ffpb = k →
          a.ndevices ∣ k → a.bpfb = 1 → ∃ draws, Draws E dirs L k draws ∧ ((∀ j, Episodes.NoRepeat L (draws j)) → ∀ fuel, L * k ≤ fuel →
            ∀ modern xs e, CanLoop (fun ops outs => BufferedEpisodes E fuel modern ops s outs) xs e ↔
              Loops (nexts (fun ops => synthEpisodes E fuel ops s')) xs e))) := by
  obtain ⟨s, files, dirs, k, a, m, g1, g2, g3, g4, g5, g6, g7, g8⟩ := C121_synthetic_partial E d d' hs n hn hbuf s' h L hp hrnd hset hpil
  refine ⟨s, files, dirs, k, a, m, g1, g2, g3, g4, g5, g6, g7, fun ho => ?_⟩
  obtain ⟨content, hc, g9⟩ := g8 ho
  refine ⟨content, hc, fun k1 k2 k3 k4 k5 => ?_⟩
  obtain ⟨draws, hd, g10⟩ := g9 k1 k2 k3 k4 k5
  refine ⟨draws, hd, fun k6 fuel k7 modern xs e => ?_⟩
  have := canLoop_iff (fun ops outs => BufferedEpisodes E fuel modern ops s outs) (fun ops => synthEpisodes E fuel ops s') id id (fun _ => rfl)
    (fun _ => rfl) rfl (fun j => (g10 k6 fuel k7 modern _).1) (fun j outs h => ?_) xs e
  · simpa using this
  · exact ⟨outs, ((g10 k6 fuel k7 modern _).2 (List.replicate j .next) List.replicate_succ (fun hm => by simp at hm) outs h).1, by simp⟩

/-- **C126** with episodes and a buffer, images from the files. -/
theorem C126_real_buffered_episodes (E : Env) (d d' : Make.Dict) (hs : SameBut d d') (n : Int) (hn : 0 < n) (hbuf : Make.Spec.NatOption d "buffer_size" n)
    (s' : Make.Smp) (h : Make.make (world E) (.dict d') = .ok s') (L : Nat) (hp : WithEpisodes d' true L)
    (hrnd : Make.Spec.ValueOr d' "randomize" (.bool false) (.bool false)) (hset : LeafDirs.SetIter E.os.iterSet) :
    ∃ s files dirs k hh ww, Make.make (world E) (.dict d) = .ok s ∧ FilesOf E .mat d' files ∧ LeafDirsOf E files dirs ∧
      Has d' "batch_size" (IsInt (k : Nat)) ∧ 0 < k ∧ IsSize d' hh ww ∧
      ∀ content, RealPipeline.Contents E.mat hh ww (dirs.flatMap E.matFiles) content → (∀ p ∈ dirs.flatMap E.matFiles, content p ≠ none) →
        Episodic.ChoiceOK (Key := KeyTerm) ⟨KeyTerm.split2, E.choice⟩ → ∃ draws, Draws E dirs L k draws ∧ ((∀ j, Episodes.NoRepeat L (draws j)) →
          ∀ fuel, L * k ≤ fuel → ∀ modern xs e, CanLoop (fun ops outs => BufferedRealEpisodes E fuel modern ops s outs) xs e ↔
            Loops (nexts (fun ops => realEpisodes E fuel ops s')) xs e) := by
  obtain ⟨s, files, dirs, k, hh, ww, g1, g2, g3, g4, g5, g6, g7⟩ := C121_real_partial E d d' hs n hn hbuf s' h L hp hrnd hset
  refine ⟨s, files, dirs, k, hh, ww, g1, g2, g3, g4, g5, g6, fun content k1 k2 k3 => ?_⟩
  obtain ⟨draws, hd, g8⟩ := g7 content k1 k2 k3
  refine ⟨draws, hd, fun k6 fuel k7 modern xs e => ?_⟩
  have := canLoop_iff (fun ops outs => BufferedRealEpisodes E fuel modern ops s outs) (fun ops => realEpisodes E fuel ops s') id id (fun _ => rfl)
    (fun _ => rfl) rfl (fun j => (g8 k6 fuel k7 modern _).1) (fun j outs h => ?_) xs e
  · simpa using this
  · exact ⟨outs, ((g8 k6 fuel k7 modern _).2 (List.replicate j .next) List.replicate_succ (fun hm => by simp at hm) outs h).1, by simp⟩

end Verif.ForLoop
