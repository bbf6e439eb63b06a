import Verif.Spec.Reader
import Verif.Proofs.BaseMore
import Verif.Proofs.SamplerRun
import Verif.Props.SynthAny
/-!
# Lemmas for C156: a scheduler over files is a reader, and so are the samplers on it
-/

namespace Verif.Reader
open Verif

variable {α D K : Type}

/-- A scheduler over the files `fl`, which hold the samples `items`. -/
structure Setting (w : Base.World ℚ D K) (c : Base.Cfg) (fl : List String) (items : String → List α) (toS : α → Base.Sample ℚ)
    (fsh : List Nat) (o1 o2 : Option (List Nat)) (named : Bool) : Prop where
  nodup : fl.Nodup
  perm : c.randomize = true → Base.PermOK w
  yields : ∀ p ∈ fl, Base.Yields w p ((items p).map toS)
  uniform : ∀ l : List α, (∀ q ∈ l, q ∈ fl.flatMap items) → Base.Uniform (l.map toS) fsh o1 o2 named
  some_ : c.loop = true → fl.flatMap items ≠ []

/-- The scheduler holds the samples `rest` of the current pass. -/
structure At (w : Base.World ℚ D K) (c : Base.Cfg) (fl : List String) (items : String → List α) (toS : α → Base.Sample ℚ)
    (rest : List α) (s : Base.St D K) : Prop where
  inv : Base.Inv w (fun p => (items p).map toS) s
  rem : Base.rem (fun p => (items p).map toS) s = rest.map toS
  mem : ∀ q ∈ rest, q ∈ fl.flatMap items
  perm : s.fileList.Perm fl
  order : c.randomize = false → s.fileList = fl

section
variable {w : Base.World ℚ D K} {c : Base.Cfg} {fl : List String} {items : String → List α} {toS : α → Base.Sample ℚ}
  {fsh : List Nat} {o1 o2 : Option (List Nat)} {named : Bool}

theorem pass_stream {order : List String} (h : order.Nodup) :
    Base.streamAfter (fun p => (items p).map toS) none order = (order.flatMap items).map toS := by
  rw [Base.streamAfter_none, Base.dropRepeats_eq_self _ (Base.nodup_chain h), List.map_flatMap]

theorem shuffle_same (hr : c.randomize = false) (l : List String) (k : K) : (Base.shuffle w c l k).1 = l := by
  simp [Base.shuffle, hr]

theorem shuffles_perm (hp : c.randomize = true → Base.PermOK w) : ∀ (n : Nat) (x : List String × K),
    (Base.shuffles w c x n).1.Perm x.1
  | 0, _ => List.Perm.refl _
  | n + 1, x => (shuffles_perm hp n _).trans (Base.shuffle_perm hp _ _)

theorem shuffles_same (hr : c.randomize = false) : ∀ (n : Nat) (x : List String × K), (Base.shuffles w c x n).1 = x.1
  | 0, _ => rfl
  | n + 1, x => (shuffles_same hr n _).trans (shuffle_same hr _ _)

theorem isPass_mem {rnd : Bool} {l : List α} (h : IsPass fl rnd items l) : ∀ q ∈ l, q ∈ fl.flatMap items := by
  obtain ⟨order, h1, _, rfl⟩ := h
  intro q hq
  obtain ⟨p, hp, hq⟩ := List.mem_flatMap.mp hq
  exact List.mem_flatMap.mpr ⟨p, h1.mem_iff.mp hp, hq⟩

theorem Setting.at_fresh (h : Setting w c fl items toS fsh o1 o2 named) {l : List String} (hl : l.Perm fl) (ho : c.randomize = false → l = fl)
    (k : K) : ∃ new, IsPass fl c.randomize items new ∧
      At w c fl items toS new { fileList := l, index := 0, cached := none, sliceIdx := 0, key := k } := by
  have hp : IsPass fl c.randomize items (l.flatMap items) := ⟨l, hl, ho, rfl⟩
  refine ⟨_, hp, Base.inv_fresh (fun p hp => h.yields p (hl.mem_iff.mp hp)), ?_, isPass_mem hp, hl, ho⟩
  rw [Base.rem_fresh _ rfl rfl]
  exact pass_stream (hl.nodup_iff.mpr h.nodup)

theorem Setting.at_init (h : Setting w c fl items toS fsh o1 o2 named) (key : K) :
    ∃ new, IsPass fl c.randomize items new ∧ At w c fl items toS new (Base.init w c fl key) :=
  h.at_fresh (Base.shuffle_perm h.perm fl key) (fun hr => shuffle_same hr _ _) _

theorem Setting.at_reset (h : Setting w c fl items toS fsh o1 o2 named) {rest : List α} {s : Base.St D K} (ha : At w c fl items toS rest s) :
    ∃ new, IsPass fl c.randomize items new ∧ At w c fl items toS new (Base.reset w c s) :=
  h.at_fresh ((Base.shuffle_perm h.perm _ _).trans ha.perm) (fun hr => (shuffle_same hr _ _).trans (ha.order hr)) _

/-! ## The list of files changes only by shuffling -/

def Step.files {V : Type} : Base.Step V D K → List String
  | .cont s => s.fileList
  | .ret _ s => s.fileList
  | .stop s => s.fileList
  | .raise _ s => s.fileList

theorem takeSlice_files {V : Type} (w : Base.World V D K) (s : Base.St D K) (q : String) (d : D) :
    Step.files (Base.takeSlice w s q d) = s.fileList := by
  unfold Base.takeSlice
  repeat' split
  all_goals rfl

theorem body_files {V : Type} (w : Base.World V D K) (s : Base.St D K) : Step.files (Base.body w s) = s.fileList := by
  unfold Base.body
  repeat' split
  all_goals first | rfl | exact takeSlice_files _ _ _ _

theorem iter_files {V : Type} {w : Base.World V D K} {c : Base.Cfg} (hr : c.randomize = false) (s : Base.St D K) :
    Step.files (Base.iter w c s) = s.fileList := by
  unfold Base.iter
  repeat' split
  · exact body_files _ _
  · rw [body_files]
    simp [Base.reset, Base.shuffle, hr]
  · rfl

theorem getNext_files {V : Type} {w : Base.World V D K} {c : Base.Cfg} (hr : c.randomize = false) : ∀ (fuel : Nat) (s : Base.St D K)
    (r : Base.Next V) (s' : Base.St D K), Base.getNext w c fuel s = some (r, s') → s'.fileList = s.fileList := by
  intro fuel
  induction fuel with
  | zero => intro s r s' h; cases h
  | succ f ih =>
    intro s r s' h
    have hi := iter_files (w := w) hr s
    rw [Base.getNext] at h
    cases he : Base.iter w c s with
    | cont s1 => rw [he] at h hi; exact (ih _ _ _ h).trans hi
    | ret x s1 => rw [he] at h hi; cases h; exact hi
    | stop s1 => rw [he] at h hi; cases h; exact hi
    | raise e s1 => rw [he] at h hi; cases h; exact hi

theorem collect_files {V : Type} {w : Base.World V D K} {c : Base.Cfg} (hr : c.randomize = false) (fuel : Nat) : ∀ (n : Nat) (s : Base.St D K)
    (r : Except Exc (List (Base.Sample V))) (s' : Base.St D K), Base.collect w c fuel n s = some (r, s') → s'.fileList = s.fileList := by
  intro n
  induction n with
  | zero => intro s r s' h; cases h; rfl
  | succ n ih =>
    intro s r s' h
    rw [Base.collect] at h
    cases hg : Base.getNext w c fuel s with
    | none => rw [hg] at h; cases h
    | some q =>
      obtain ⟨x, s1⟩ := q
      have h1 := getNext_files hr fuel s x s1 hg
      rw [hg] at h
      cases x with
      | stop => cases h; exact h1
      | raise e =>
        dsimp only at h
        split at h <;> cases h <;> exact h1
      | ret x =>
        dsimp only at h
        cases hc : Base.collect w c fuel n s1 with
        | none => rw [hc] at h; cases h
        | some q =>
          obtain ⟨y, s2⟩ := q
          have h2 := ih _ _ _ hc
          rw [hc] at h
          cases y <;> cases h <;> exact h2.trans h1

theorem getBatch_files {V : Type} {w : Base.World V D K} {c : Base.Cfg} (hr : c.randomize = false) (zero : V) (fuel n : Nat) (s : Base.St D K)
    (r : Except Exc (Base.Batch V)) (s' : Base.St D K) (h : Base.getBatch zero w c fuel n s = some (r, s')) : s'.fileList = s.fileList := by
  unfold Base.getBatch at h
  cases hc : Base.collect w c fuel n s with
  | none => rw [hc] at h; cases h
  | some q =>
    obtain ⟨y, s2⟩ := q
    have h2 := collect_files hr fuel n s y s2 hc
    rw [hc] at h
    cases y with
    | error e => cases h; exact h2
    | ok l =>
      dsimp only at h
      split at h
      · split at h
        · cases h
          rw [← h2]
          simp [Base.reset, Base.shuffle, hr]
        · cases h; exact h2
      · cases h; exact h2

/-! ## A batch -/

theorem map_split {β : Type} {f : α → β} {l : List α} {xs ys : List β} {m : Nat} (hx : xs.length = m) (h : l.map f = xs ++ ys) :
    xs = (l.take m).map f ∧ ys = (l.drop m).map f := by
  rw [List.map_take, List.map_drop, h]
  subst hx
  simp

theorem Setting.serve (h : Setting w c fl items toS fsh o1 o2 named) {rest : List α} {s : Base.St D K} (ha : At w c fl items toS rest s)
    {m : Nat} (hm : 0 < m) {fuel : Nat} (hf : 2 * fl.length < fuel) :
    ∃ more, Ahead c.loop (IsPass fl c.randomize items) more ∧ (c.loop = true → m ≤ (rest ++ more).length) ∧
      (∀ q ∈ rest ++ more, q ∈ fl.flatMap items) ∧ ∃ s', At w c fl items toS ((rest ++ more).drop m) s' ∧
      ((rest ++ more = [] ∧ Base.getBatch 0 w c fuel m s = some (.error .stopIteration, s')) ∨
       (rest ++ more ≠ [] ∧ ∃ b, Base.getBatch 0 w c fuel m s = some (.ok b, s') ∧ Base.Shows 0 (((rest ++ more).take m).map toS) m b)) := by
  have hlen : s.fileList.length = fl.length := ha.perm.length_eq
  cases hl : c.loop with
  | false =>
    obtain ⟨s', g1, g2, g3, g4, g5⟩ := Base.getBatch_nonloop (0 : ℚ) hl m s ha.inv
    refine ⟨[], by simp [Ahead], by simp, by simpa using ha.mem, s', ?_, ?_⟩
    · refine ⟨g1, by rw [g2, ha.rem, List.append_nil, List.map_drop], fun q hq => ha.mem q (by simpa using List.mem_of_mem_drop hq),
        by rw [g3]; exact ha.perm, fun hr => by rw [g3]; exact ha.order hr⟩
    · have g6 := g5 fuel (by omega)
      rw [ha.rem, ← List.map_take] at g6
      rw [List.append_nil]
      by_cases hr : rest = []
      · left
        refine ⟨hr, ?_⟩
        rw [g6, hr]
        simp
      · right
        have hne : (rest.take m).map toS ≠ [] := by
          intro h0
          apply hr
          have := congrArg List.length h0
          rw [List.length_map, List.length_take, List.length_nil] at this
          exact List.length_eq_zero_iff.mp (by omega)
        obtain ⟨b, b1, b2, _⟩ := Base.assemble_uniform (0 : ℚ) c (n := m) hne (by rw [List.length_map, List.length_take]; omega)
          (fun h => by rw [hl] at h; cases h) (h.uniform (rest.take m) (fun q hq => ha.mem q (List.mem_of_mem_take hq)))
        refine ⟨hr, b, ?_, b2⟩
        rw [g6, if_neg hne, b1]
  | true =>
    have hex : ∃ p ∈ s.fileList, (items p).map toS ≠ [] := by
      obtain ⟨q, hq⟩ := List.exists_mem_of_ne_nil _ (h.some_ hl)
      obtain ⟨p, hp, hq⟩ := List.mem_flatMap.mp hq
      exact ⟨p, ha.perm.mem_iff.mpr hp, fun h0 => by rw [List.map_eq_nil_iff] at h0; rw [h0] at hq; cases hq⟩
    obtain ⟨xs, s', j, g0, g1, g2, g3, g4⟩ := Base.getBatch_loop (0 : ℚ) hl h.perm m hm s ha.inv hex
    have g5 := g4 fuel (by omega)
    have horder : ∀ k, (Base.shuffles w c (s.fileList, s.key) (k + 1)).1.Perm fl := fun k => (shuffles_perm h.perm _ _).trans ha.perm
    let passes : List (List α) := (List.range j).map (fun k => (Base.shuffles w c (s.fileList, s.key) (k + 1)).1.flatMap items)
    have hpass : ∀ l ∈ passes, IsPass fl c.randomize items l := by
      intro l hl
      obtain ⟨k, _, rfl⟩ := List.mem_map.mp hl
      exact ⟨_, horder k, fun hr => (shuffles_same hr _ _).trans (ha.order hr), rfl⟩
    have hstream : (rest ++ passes.flatten).map toS = xs ++ Base.rem (fun p => (items p).map toS) s' := by
      have := g3 0
      rw [Nat.zero_add] at this
      unfold Base.loopStream at this
      simp only [List.range_zero, List.flatMap_nil, List.append_nil] at this
      rw [← this, List.map_append, ha.rem, List.map_flatten, List.map_map]
      congr 1
      rw [List.flatMap_def]
      congr 1
      apply List.map_congr_left
      intro k _
      exact (pass_stream ((horder k).nodup_iff.mpr h.nodup)).symm
    obtain ⟨e1, e2⟩ := map_split g0 hstream
    have hmem : ∀ q ∈ rest ++ passes.flatten, q ∈ fl.flatMap items := by
      intro q hq
      rcases List.mem_append.mp hq with hq | hq
      · exact ha.mem q hq
      · obtain ⟨l, hl, hq⟩ := List.mem_flatten.mp hq
        exact isPass_mem (hpass l hl) q hq
    have hge : m ≤ (rest ++ passes.flatten).length := by
      have := congrArg List.length hstream
      rw [List.length_map, List.length_append (as := xs), g0] at this
      omega
    have hne : rest ++ passes.flatten ≠ [] := by
      intro h0
      rw [h0, List.length_nil] at hge
      omega
    refine ⟨passes.flatten, by rw [Ahead, if_pos rfl]; exact ⟨passes, hpass, rfl⟩, fun _ => hge, hmem, s', ?_, .inr ⟨hne, ?_⟩⟩
    · refine ⟨g1, e2, fun q hq => hmem q (List.mem_of_mem_drop hq), g2.trans ha.perm, fun hr => ?_⟩
      rw [← ha.order hr]
      exact getBatch_files hr 0 fuel m s _ s' g5
    · have hx : xs ≠ [] := fun h0 => by rw [h0] at g0; simp at g0; omega
      rw [e1] at hx
      obtain ⟨b, b1, b2, _⟩ := Base.assemble_uniform (0 : ℚ) c (n := m) hx (by rw [List.length_map, List.length_take]; omega)
        (fun _ => by rw [List.length_map, List.length_take]; omega)
        (h.uniform _ (fun q hq => hmem q (List.mem_of_mem_take hq)))
      refine ⟨b, ?_, b2⟩
      rw [g5, e1, b1]

/-! ## The real-image sampler -/

theorem Setting.real_run (h : Setting w c fl items toS fsh o1 o2 named) {m : Nat} (hm : 0 < m) {fuel : Nat} (hf : 2 * fl.length < fuel) :
    ∀ (ops : List Sampler.Op) (rest : List α) (s : Base.St D K), At w c fl items toS rest s →
    ∃ outs s', Sampler.realHistory (Sampler.ofPlain (Base.sched 0 w c fuel)) m ops s = some (outs, s') ∧
      Shown m c.loop (IsPass fl c.randomize items) (fun l x => l ≠ [] ∧ l.length ≤ m ∧ (∀ q ∈ l, q ∈ fl.flatMap items) ∧
        ∃ b, Base.Shows 0 (l.map toS) m b ∧ x = RealPipeline.asReal b) rest ops outs := by
  intro ops
  induction ops with
  | nil => intro rest s _; exact ⟨[], s, rfl, rfl⟩
  | cons op ops ih =>
    intro rest s ha
    cases op with
    | next =>
      obtain ⟨more, g1, g2, gm, s', g3, g4⟩ := h.serve ha hm hf
      rcases g4 with ⟨he, hg⟩ | ⟨hne, b, hg, hs⟩
      · rw [he, List.drop_nil] at g3
        obtain ⟨outs, s2, r1, r2⟩ := ih _ _ g3
        refine ⟨.raised .stopIteration :: outs, s2, ?_, more, g1, g2, .inl ⟨he, outs, rfl, r2⟩⟩
        have hn : Sampler.realNext (Sampler.ofPlain (Base.sched 0 w c fuel)) m s = some (.error .stopIteration, s') := by
          have e : (Sampler.ofPlain (Base.sched 0 w c fuel)).getBatch m s = some (.error .stopIteration, s') := hg
          unfold Sampler.realNext Sampler.episodeOver Sampler.realGetNext
          rw [e]
          rfl
        rw [Sampler.realHistory, Sampler.realStep, hn]
        simp only [Option.map_some, r1]
        rfl
      · obtain ⟨outs, s2, r1, r2⟩ := ih _ _ g3
        refine ⟨.batch (RealPipeline.asReal b) :: outs, s2, ?_, more, g1, g2, .inr ⟨hne, _, outs, rfl, ⟨?_, ?_, ?_, b, hs, rfl⟩, r2⟩⟩
        · have hn : Sampler.realNext (Sampler.ofPlain (Base.sched 0 w c fuel)) m s = some (.ok (RealPipeline.asReal b), s') := by
            have e : (Sampler.ofPlain (Base.sched 0 w c fuel)).getBatch m s = some (.ok b, s') := hg
            unfold Sampler.realNext Sampler.episodeOver Sampler.realGetNext
            rw [e]
            rfl
          rw [Sampler.realHistory, Sampler.realStep, hn]
          simp only [Option.map_some, r1]
          rfl
        · intro h0
          apply hne
          have := congrArg List.length h0
          rw [List.length_take, List.length_nil] at this
          exact List.length_eq_zero_iff.mp (by omega)
        · rw [List.length_take]; omega
        · exact fun q hq => gm q (List.mem_of_mem_take hq)
    | nextEpisode =>
      obtain ⟨outs, s2, r1, r2⟩ := ih _ _ ha
      refine ⟨.raised .attributeError :: outs, s2, ?_, outs, rfl, r2⟩
      rw [Sampler.realHistory]
      have : Sampler.realStep (Sampler.ofPlain (Base.sched 0 w c fuel)) m s .nextEpisode = some (.raised .attributeError, s) := rfl
      rw [this]
      simp only [r1]
    | reset b =>
      cases b with
      | false =>
        obtain ⟨outs, s2, r1, r2⟩ := ih _ _ ha
        refine ⟨.done :: outs, s2, ?_, outs, rfl, r2⟩
        rw [Sampler.realHistory, Sampler.realStep]
        simp only [r1]
      | true =>
        obtain ⟨new, n1, n2⟩ := h.at_reset ha
        obtain ⟨outs, s2, r1, r2⟩ := ih _ _ n2
        refine ⟨.done :: outs, s2, ?_, new, outs, n1, rfl, r2⟩
        rw [Sampler.realHistory]
        have : Sampler.realStep (Sampler.ofPlain (Base.sched 0 w c fuel)) m s (.reset true) = some (.done, Base.reset w c s) := rfl
        rw [this]
        simp only [r1]

/-! ## The synthetic sampler -/

/-- The sampler has made `used` batches from the samples `cur` and `n` since the last reset. -/
structure SAt {O I : Type} (w : Base.World ℚ D K) (c : Base.Cfg) (fl : List String) (items : String → List α) (toS : α → Base.Sample ℚ)
    (g : Sampler.Gen (Adapter.Field2 ℚ) O I) (cfg : Sampler.Cfg) (rest : List α) (cur : Option (List α)) (used n : Nat)
    (s : Sampler.St (Base.St D K) (Adapter.Field2 ℚ) O) : Prop where
  at_ : At w c fl items toS rest s.sched
  rng : s.rng = Nat.repeat (fun k => k.split2.1) n (.seed cfg.seed)
  used : s.generated = used
  cur : match cur with
    | none => s.cur = none
    | some l => l ≠ [] ∧ l.length ≤ cfg.ffpb ∧ (∀ q ∈ l, q ∈ fl.flatMap items) ∧ ∃ b, Base.Shows 0 (l.map toS) cfg.ffpb b ∧
        s.cur = some (Sampler.adaptAll g cfg (SynthPipeline.view b).flows).2 ∧
        s.outFlows = (Sampler.adaptAll g cfg (SynthPipeline.view b).flows).1 ∧
        s.mask = (SynthPipeline.view b).mask ∧ s.files = (SynthPipeline.view b).files

theorem view_length {l : List (Base.Sample ℚ)} (hne : l ≠ []) {m : Nat} {b : Base.Batch ℚ} (hs : Base.Shows 0 l m b) :
    (SynthPipeline.view b).flows.length = m := by
  obtain ⟨x, hx⟩ := List.exists_mem_of_ne_nil _ hne
  show (b.flow.rows.map _).length = _
  rw [List.length_map]
  unfold Arr.rows
  rw [List.length_map, List.length_range, hs.flow_shape x hx]
  rfl

/-- What is known of a batch. -/
def MadeBy {O I : Type} (fl : List String) (items : String → List α) (toS : α → Base.Sample ℚ) (g : Sampler.Gen (Adapter.Field2 ℚ) O I)
    (cfg : Sampler.Cfg) (n : Nat) (l : List α) (x : Sampler.OutBatch O I) : Prop :=
  l ≠ [] ∧ l.length ≤ cfg.ffpb ∧ (∀ q ∈ l, q ∈ fl.flatMap items) ∧ x.done = none ∧
  ∃ b, Base.Shows 0 (l.map toS) cfg.ffpb b ∧ Sampler.MadeFrom g cfg (Sampler.batchKey cfg.seed n) (SynthPipeline.view b) x

theorem Setting.sampler_run {O I : Type} (h : Setting w c fl items toS fsh o1 o2 named) (g : Sampler.Gen (Adapter.Field2 ℚ) O I)
    {cfg : Sampler.Cfg} (hok : cfg.OK) (hdv : cfg.ffpb % cfg.ndevices = 0) {fuel : Nat} (hf : 2 * fl.length < fuel) :
    ∀ (ops : List Sampler.Op) (rest : List α) (cur : Option (List α)) (used n : Nat) (s : Sampler.St (Base.St D K) (Adapter.Field2 ℚ) O),
    SAt w c fl items toS g cfg rest cur used n s →
    ∃ outs s', Sampler.run (Sampler.ofPlain (Synthetic.fieldSched w c fuel)) g cfg ops s = some (outs, s') ∧
      Makes cfg.ffpb cfg.bpfb c.loop (IsPass fl c.randomize items) (MadeBy fl items toS g cfg) rest cur used n ops outs := by
  intro ops
  induction ops with
  | nil => intro rest cur used n s _; exact ⟨[], s, rfl, rfl⟩
  | cons op ops ih =>
    intro rest cur used n s ha
    cases op with
    | next =>
      have hkey : s.rng.split2.2 = Sampler.batchKey cfg.seed n := by rw [ha.rng]; rfl
      by_cases hc : ∃ l, cur = some l ∧ used < cfg.bpfb
      · obtain ⟨l, rfl, hu⟩ := hc
        obtain ⟨c1, c2, c3, b, c4, c5, c6, c7, c8⟩ := ha.cur
        have hvl := view_length (by simpa using c1) c4
        have hd : (Sampler.adaptAll g cfg (SynthPipeline.view b).flows).2.length % cfg.ndevices = 0 := by
          show ((SynthPipeline.view b).flows.map _).length % _ = 0
          rw [List.length_map, hvl]; exact hdv
        have hm := Sampler.MadeFrom.of_images g cfg hok (Sampler.batchKey cfg.seed n) (SynthPipeline.view b)
          (by rw [hvl]; exact hok.ffpb) (by rw [hvl]; exact hdv) none
        obtain ⟨outs, s2, r1, r2⟩ := ih rest (some l) (used + 1) (n + 1) { s with rng := s.rng.split2.1, generated := s.generated + 1 }
          ⟨ha.at_, by show s.rng.split2.1 = _; rw [ha.rng]; rfl, by show s.generated + 1 = _; rw [ha.used], c1, c2, c3, b, c4, c5, c6, c7, c8⟩
        refine ⟨_ :: outs, s2, ?_, .inl ⟨l, rfl, hu, _, outs, rfl, ⟨c1, c2, c3, rfl, b, c4, hm⟩, r2⟩⟩
        have hn : Sampler.next (Sampler.ofPlain (Synthetic.fieldSched w c fuel)) g cfg s =
            some (.ok ⟨Sampler.images g cfg (Sampler.batchKey cfg.seed n) (Sampler.adaptAll g cfg (SynthPipeline.view b).flows).2,
              (Sampler.adaptAll g cfg (SynthPipeline.view b).flows).1, (SynthPipeline.view b).mask, (SynthPipeline.view b).files, none⟩,
              { s with rng := s.rng.split2.1, generated := s.generated + 1 }) := by
          have hover : Sampler.episodeOver (Sampler.ofPlain (Synthetic.fieldSched w c fuel)) s.sched = false := rfl
          unfold Sampler.next Sampler.getNext
          rw [hover, if_neg (by simp), c5]
          dsimp only
          rw [if_pos (by rw [ha.used]; exact hu)]
          unfold Sampler.produce
          dsimp only
          rw [if_neg (by rw [hd]; simp), hkey, c6, c7, c8, c5]
          rfl
        rw [Sampler.run, Sampler.step, hn]
        simp only [Option.map_some, r1]
        rfl
      · have hcase : cur = none ∨ cfg.bpfb ≤ used := by
          cases cur with
          | none => exact .inl rfl
          | some l => exact .inr (Nat.le_of_not_lt fun hlt => hc ⟨l, rfl, hlt⟩)
        have hfetch : Sampler.getNext (Sampler.ofPlain (Synthetic.fieldSched w c fuel)) g cfg s =
            Sampler.getNext.fetch (Sampler.ofPlain (Synthetic.fieldSched w c fuel)) g cfg s := by
          unfold Sampler.getNext
          rcases hcase with h1 | h1
          · subst h1
            have := ha.cur
            dsimp only at this
            rw [this]
          · cases hs : s.cur with
            | none => rfl
            | some fl => dsimp only; rw [if_neg (by rw [ha.used]; omega)]
        obtain ⟨more, g1, g2, gm, sc, g3, g4⟩ := h.serve ha.at_ hok.ffpb hf
        rcases g4 with ⟨he, hg⟩ | ⟨hne, b, hg, hs⟩
        · rw [he, List.drop_nil] at g3
          obtain ⟨outs, s2, r1, r2⟩ := ih [] cur 0 n { s with generated := 0, sched := sc } ⟨g3, ha.rng, rfl, ha.cur⟩
          refine ⟨.raised .stopIteration :: outs, s2, ?_, .inr ⟨hcase, more, g1, g2, .inl ⟨he, outs, rfl, r2⟩⟩⟩
          have hn : Sampler.next (Sampler.ofPlain (Synthetic.fieldSched w c fuel)) g cfg s =
              some (.error .stopIteration, { s with generated := 0, sched := sc }) := by
            have e : (Sampler.ofPlain (Synthetic.fieldSched w c fuel)).getBatch cfg.ffpb s.sched = some (.error .stopIteration, sc) := by
              show ((Base.getBatch 0 w c fuel cfg.ffpb s.sched).map _) = _
              rw [hg]
              rfl
            unfold Sampler.next Sampler.episodeOver
            rw [hfetch]
            unfold Sampler.getNext.fetch
            rw [e]
            rfl
          rw [Sampler.run, Sampler.step, hn]
          simp only [Option.map_some, r1]
          rfl
        · have c1 : (rest ++ more).take cfg.ffpb ≠ [] := by
            intro h0
            apply hne
            have := congrArg List.length h0
            have := hok.ffpb
            rw [List.length_take, List.length_nil] at *
            exact List.length_eq_zero_iff.mp (by omega)
          have c2 : ((rest ++ more).take cfg.ffpb).length ≤ cfg.ffpb := by rw [List.length_take]; omega
          have c3 : ∀ q ∈ (rest ++ more).take cfg.ffpb, q ∈ fl.flatMap items := fun q hq => gm q (List.mem_of_mem_take hq)
          have hvl := view_length (by simpa using c1) hs
          have hd0 : (SynthPipeline.view b).flows.length % cfg.ndevices = 0 := by rw [hvl]; exact hdv
          have hd : (Sampler.adaptAll g cfg (SynthPipeline.view b).flows).2.length % cfg.ndevices = 0 := by
            show ((SynthPipeline.view b).flows.map _).length % _ = 0
            rw [List.length_map]; exact hd0
          have hm := Sampler.MadeFrom.of_images g cfg hok (Sampler.batchKey cfg.seed n) (SynthPipeline.view b)
            (by rw [hvl]; exact hok.ffpb) hd0 none
          obtain ⟨outs, s2, r1, r2⟩ := ih ((rest ++ more).drop cfg.ffpb) (some ((rest ++ more).take cfg.ffpb)) 1 (n + 1)
            ⟨sc, s.rng.split2.1, some (Sampler.adaptAll g cfg (SynthPipeline.view b).flows).2,
              (Sampler.adaptAll g cfg (SynthPipeline.view b).flows).1, (SynthPipeline.view b).mask, (SynthPipeline.view b).files, 1⟩
            ⟨g3, by show s.rng.split2.1 = _; rw [ha.rng]; rfl, rfl, c1, c2, c3, b, hs, rfl, rfl, rfl, rfl⟩
          refine ⟨_ :: outs, s2, ?_, .inr ⟨hcase, more, g1, g2, .inr ⟨hne, _, outs, rfl, ⟨c1, c2, c3, rfl, b, hs, hm⟩, r2⟩⟩⟩
          have hn : Sampler.next (Sampler.ofPlain (Synthetic.fieldSched w c fuel)) g cfg s =
              some (.ok ⟨Sampler.images g cfg (Sampler.batchKey cfg.seed n) (Sampler.adaptAll g cfg (SynthPipeline.view b).flows).2,
                (Sampler.adaptAll g cfg (SynthPipeline.view b).flows).1, (SynthPipeline.view b).mask, (SynthPipeline.view b).files, none⟩,
                ⟨sc, s.rng.split2.1, some (Sampler.adaptAll g cfg (SynthPipeline.view b).flows).2,
                (Sampler.adaptAll g cfg (SynthPipeline.view b).flows).1, (SynthPipeline.view b).mask, (SynthPipeline.view b).files, 1⟩) := by
            have e : (Sampler.ofPlain (Synthetic.fieldSched w c fuel)).getBatch cfg.ffpb s.sched = some (.ok (SynthPipeline.view b), sc) := by
              show ((Base.getBatch 0 w c fuel cfg.ffpb s.sched).map _) = _
              rw [hg]
              rfl
            have hover : Sampler.episodeOver (Sampler.ofPlain (Synthetic.fieldSched w c fuel)) s.sched = false := rfl
            unfold Sampler.next
            rw [hover, if_neg (by simp), hfetch]
            unfold Sampler.getNext.fetch
            rw [e]
            dsimp only
            rw [if_neg (by rw [hd0]; simp)]
            unfold Sampler.produce
            dsimp only
            rw [if_neg (by rw [hd]; simp), hkey]
            rfl
          rw [Sampler.run, Sampler.step, hn]
          simp only [Option.map_some, r1]
          rfl
    | nextEpisode =>
      obtain ⟨outs, s2, r1, r2⟩ := ih _ _ _ _ s ha
      refine ⟨.raised .attributeError :: outs, s2, ?_, outs, rfl, r2⟩
      have hne : Sampler.nextEpisode (Sampler.ofPlain (Synthetic.fieldSched w c fuel)) s = (.error .attributeError, s) := rfl
      rw [Sampler.run, Sampler.step, hne]
      simp only [r1]
      rfl
    | reset b =>
      cases b with
      | false =>
        obtain ⟨outs, s2, r1, r2⟩ := ih rest none 0 0 (Sampler.resetSelf cfg s) ⟨ha.at_, rfl, rfl, rfl⟩
        refine ⟨.done :: outs, s2, ?_, outs, rfl, r2⟩
        have hne : Sampler.reset (Sampler.ofPlain (Synthetic.fieldSched w c fuel)) cfg false s = (.ok (), Sampler.resetSelf cfg s) := rfl
        rw [Sampler.run, Sampler.step, hne]
        simp only [r1]
        rfl
      | true =>
        obtain ⟨new, n1, n2⟩ := h.at_reset ha.at_
        obtain ⟨outs, s2, r1, r2⟩ := ih new none 0 0 { Sampler.resetSelf cfg s with sched := Base.reset w c s.sched } ⟨n2, rfl, rfl, rfl⟩
        refine ⟨.done :: outs, s2, ?_, new, outs, n1, rfl, r2⟩
        have hne : Sampler.reset (Sampler.ofPlain (Synthetic.fieldSched w c fuel)) cfg true s =
            (.ok (), { Sampler.resetSelf cfg s with sched := Base.reset w c s.sched }) := rfl
        rw [Sampler.run, Sampler.step, hne]
        simp only [r1]
        rfl

end

/-! ## What is said about the batches may be weakened -/

theorem Shown.mono {β : Type} {m : Nat} {loop : Bool} {pass : List α → Prop} {P Q : List α → β → Prop} (hpq : ∀ l x, P l x → Q l x) :
    ∀ (ops : List Sampler.Op) (rest : List α) (outs : List (Sampler.Out β)), Shown m loop pass P rest ops outs → Shown m loop pass Q rest ops outs := by
  intro ops
  induction ops with
  | nil => intro rest outs h; exact h
  | cons op ops ih =>
    intro rest outs h
    cases op with
    | next =>
      obtain ⟨more, h1, h2, h3⟩ := h
      refine ⟨more, h1, h2, ?_⟩
      rcases h3 with ⟨h3, o, h4, h5⟩ | ⟨h3, x, o, h4, h5, h6⟩
      · exact .inl ⟨h3, o, h4, ih _ _ h5⟩
      · exact .inr ⟨h3, x, o, h4, hpq _ _ h5, ih _ _ h6⟩
    | nextEpisode => obtain ⟨o, h1, h2⟩ := h; exact ⟨o, h1, ih _ _ h2⟩
    | reset b =>
      cases b with
      | false => obtain ⟨o, h1, h2⟩ := h; exact ⟨o, h1, ih _ _ h2⟩
      | true => obtain ⟨new, o, h0, h1, h2⟩ := h; exact ⟨new, o, h0, h1, ih _ _ h2⟩

theorem Makes.mono {β : Type} {m k : Nat} {loop : Bool} {pass : List α → Prop} {P Q : Nat → List α → β → Prop}
    (hpq : ∀ n l x, P n l x → Q n l x) : ∀ (ops : List Sampler.Op) (rest : List α) (cur : Option (List α)) (used n : Nat)
    (outs : List (Sampler.Out β)), Makes m k loop pass P rest cur used n ops outs → Makes m k loop pass Q rest cur used n ops outs := by
  intro ops
  induction ops with
  | nil => intro rest cur used n outs h; exact h
  | cons op ops ih =>
    intro rest cur used n outs h
    cases op with
    | next =>
      rcases h with ⟨l, h1, h2, x, o, h3, h4, h5⟩ | ⟨h0, more, h1, h2, h3⟩
      · exact .inl ⟨l, h1, h2, x, o, h3, hpq _ _ _ h4, ih _ _ _ _ _ h5⟩
      · refine .inr ⟨h0, more, h1, h2, ?_⟩
        rcases h3 with ⟨h3, o, h4, h5⟩ | ⟨h3, x, o, h4, h5, h6⟩
        · exact .inl ⟨h3, o, h4, ih _ _ _ _ _ h5⟩
        · exact .inr ⟨h3, x, o, h4, hpq _ _ _ h5, ih _ _ _ _ _ h6⟩
    | nextEpisode => obtain ⟨o, h1, h2⟩ := h; exact ⟨o, h1, ih _ _ _ _ _ h2⟩
    | reset b =>
      cases b with
      | false => obtain ⟨o, h1, h2⟩ := h; exact ⟨o, h1, ih _ _ _ _ _ h2⟩
      | true => obtain ⟨new, o, h0, h1, h2⟩ := h; exact ⟨new, o, h0, h1, ih _ _ _ _ _ h2⟩

end Verif.Reader
