import Verif.Proofs.Make
import Verif.Model.Sampler
import Verif.Model.Prefetch
import Verif.Spec.Sampler
/-!
# Properties of `make` (C42-C44)
-/

namespace Verif.Make
open Verif Spec

/-- **C42.** Whatever the argument and whatever its surroundings: if `make` returns a sampler, then the documented
requirements hold; the sampler is the one for real images iff `include_images`; its scheduler consists of the class named
by `scheduler_class`, inside an episodic one iff `episode_length > 0`, inside a prefetching one iff `buffer_size > 0`,
each with the configured sizes; and the innermost scheduler got the configured files and flags. -/
theorem C42_builds_what_is_configured (w : World) (arg : Arg) (s : Smp) (h : make w arg = .ok s) :
    ∃ d kind b buf len inc, ConfigOf w arg d ∧ Accepted d kind b buf len inc ∧ isReal s = inc ∧
      layers (pipe s) = expectedLayers kind b buf len ∧
      ValueOr d "file_list" (.list []) (innermost (pipe s)).fileList ∧
      ValueOr d "randomize" (.bool false) (innermost (pipe s)).randomize ∧
      ValueOr d "loop" (.bool true) (innermost (pipe s)).loop ∧
      (kind = .mat → (innermost (pipe s)).includeImages = some (.bool inc)) := by
  have main : ∀ d, ConfigOf w arg d → fromDict w d = .ok s → ∃ d kind b buf len inc, ConfigOf w arg d ∧
      Accepted d kind b buf len inc ∧ isReal s = inc ∧ layers (pipe s) = expectedLayers kind b buf len ∧
      ValueOr d "file_list" (.list []) (innermost (pipe s)).fileList ∧
      ValueOr d "randomize" (.bool false) (innermost (pipe s)).randomize ∧
      ValueOr d "loop" (.bool true) (innermost (pipe s)).loop ∧
      (kind = .mat → (innermost (pipe s)).includeImages = some (.bool inc)) := by
    intro d hd hs
    obtain ⟨kind, b, buf, len, inc, root, hacc, _, hreal, hlay, _, shape, _, hin⟩ := fromDict_ok hs
    refine ⟨d, kind, b, buf, len, inc, hd, hacc, hreal, hlay, ?_, ?_, ?_, ?_⟩
    · rw [hin]; cases kind <;> exact getD_valueOr _ _ _
    · rw [hin]; cases kind <;> exact getD_valueOr _ _ _
    · rw [hin]; cases kind <;> exact getD_valueOr _ _ _
    · rintro rfl; rw [hin]; rfl
  cases arg with
  | other => cases h
  | dict d => exact main d rfl h
  | path f =>
    simp only [make] at h
    split at h
    · cases h
    rename_i h1
    split at h
    · cases h
    rename_i h2
    split at h
    · cases h
    rename_i h3
    split at h
    · cases h
    · cases h
    · rename_i d hd
      exact main d ⟨by simpa using h1, by simpa using h2, by simpa using h3, hd⟩ h

/-- **C42**, the other direction: a configuration that meets the documented requirements, with components that can be built,
gives a sampler of real images if these are wanted, and otherwise exactly the outcome of
`SyntheticImageSampler.from_config` on a scheduler with the documented layers. -/
theorem C42_accepts_what_is_documented (w : World) (hw : Healthy w) (d : Dict) (kind : Kind) (b buf len : Int) (inc : Bool)
    (h : Accepted d kind b buf len inc)
    (hshape : inc = true → ∃ t, toTuple (getD d "image_shape" (.tuple [.int 256, .int 256])) = .ok t)
    (hnum : inc = false → 0 < len → ∀ v, d.lookup "batches_per_flow_batch" = some v → ∃ x, v.asNum = some x) :
    ∃ p, layers p = expectedLayers kind b buf len ∧
      make w (.dict d) = (if inc then .ok (.real p b) else synthFromConfig w p d) := by
  obtain ⟨p, hp, hd⟩ := fromDict_of_accepted hw h hshape
  refine ⟨p, hp, ?_⟩
  show fromDict w d = _
  rw [hd]
  cases inc with
  | true => rfl
  | false =>
    obtain ⟨v, hv, hvn⟩ := h.batchesPerFlowBatch rfl
    simp only [Bool.false_eq_true, if_false, finish]
    have : getD d "batches_per_flow_batch" .none = v := by unfold getD; rw [hv]; rfl
    rw [this]
    have hcmp : ∃ c, (if 0 < len then Val.ltNum (.fin 1) v else .ok false) = Except.ok (ε := Exc) c := by
      split
      · rename_i hl
        obtain ⟨x, hx⟩ := hnum rfl hl v hv
        exact ⟨_, by unfold Val.ltNum; rw [hx]⟩
      · exact ⟨_, rfl⟩
    obtain ⟨c, hc⟩ := hcmp
    split
    · exact absurd rfl hvn
    · simp only [hc, andThen]

mutual
theorem unhashable_of_hash : ∀ v : Val, v.hashable = false → Unhashable v
  | .none, h => by cases h
  | .bool _, h => by cases h
  | .int _, h => by cases h
  | .float _, h => by cases h
  | .str _, h => by cases h
  | .list l, _ => .list l
  | .dict ks, _ => .dict ks
  | .other false, _ => .other
  | .other true, h => by cases h
  | .tuple l, h => by
    obtain ⟨v, hv, hu⟩ := unhashable_of_all l h
    exact .tuple l v hv hu
theorem unhashable_of_all : ∀ l : List Val, Val.allHashable l = false → ∃ v ∈ l, Unhashable v
  | [], h => by cases h
  | v :: l, h => by
    rw [Val.allHashable, Bool.and_eq_false_iff] at h
    rcases h with h | h
    · exact ⟨v, by simp, unhashable_of_hash v h⟩
    · obtain ⟨u, hu, hx⟩ := unhashable_of_all l h
      exact ⟨u, by simp [hu], hx⟩
end

theorem allHashable_mem : ∀ {l : List Val} {v : Val}, v ∈ l → v.hashable = false → Val.allHashable l = false
  | _ :: _, _, h, hv => by
    rw [Val.allHashable, Bool.and_eq_false_iff]
    rcases List.mem_cons.mp h with rfl | h
    · exact .inl hv
    · exact .inr (allHashable_mem h hv)

theorem hashable_iff (v : Val) : v.hashable = false ↔ Unhashable v := by
  refine ⟨unhashable_of_hash v, fun h => ?_⟩
  induction h with
  | list => rfl
  | dict => rfl
  | other => rfl
  | tuple l v hm _ ih => exact allHashable_mem hm ih

theorem sizeOption_bad {d : Dict} {k : String} (h : ¬ ∃ z, NatOption d k z) : sizeOption d k = .error .valueError := by
  cases hs : sizeOption d k with
  | ok z => exact absurd ⟨z, sizeOption_ok.1 hs⟩ h
  | error e =>
    unfold sizeOption at hs
    split at hs
    · split at hs
      · exact hs.symm
      · cases hs
    · exact hs.symm

/-- **C42**, which exception. The requirements are looked at in this order, and the first one that is not met decides: without
`scheduler_class`, `ValueError`; with a value that names no class, `ValueError`, or `TypeError` if Python cannot hash it; without a positive
integer `batch_size`, `ValueError`; with an `include_images` that is no boolean, `TypeError`; with a `buffer_size` or an `episode_length` that is
no non-negative integer, or without `flow_fields_per_batch`, `ValueError`; if images are wanted from other files than MAT files and the seed
makes a key, `ValueError`. -/
theorem C42_refusals (w : World) (d : Dict) :
    (d.lookup "scheduler_class" = none → make w (.dict d) = .error .valueError) ∧
    (∀ v, d.lookup "scheduler_class" = some v → (∀ kind, v ≠ .str (ext kind)) →
      (Unhashable v → make w (.dict d) = .error .typeError) ∧ (¬ Unhashable v → make w (.dict d) = .error .valueError)) ∧
    ∀ kind, d.lookup "scheduler_class" = some (.str (ext kind)) →
      ((¬ ∃ b v, 0 < b ∧ d.lookup "batch_size" = some v ∧ v.asInt = some b) → make w (.dict d) = .error .valueError) ∧
      ((∃ b v, 0 < b ∧ d.lookup "batch_size" = some v ∧ v.asInt = some b) →
        (∀ v, d.lookup "include_images" = some v → (∀ x, v ≠ .bool x) → make w (.dict d) = .error .typeError) ∧
        ∀ inc, ValueOr d "include_images" (.bool false) (.bool inc) →
          ((¬ ∃ z, NatOption d "buffer_size" z) ∨ (¬ ∃ z, NatOption d "episode_length" z) ∨ d.lookup "flow_fields_per_batch" = none →
            make w (.dict d) = .error .valueError) ∧
          (inc = true → kind ≠ .mat → (∃ z, NatOption d "buffer_size" z) → (∃ z, NatOption d "episode_length" z) →
            d.lookup "flow_fields_per_batch" ≠ none → (∃ root, w.prngKey (getD d "seed" (.int 0)) = .ok root) →
            make w (.dict d) = .error .valueError)) := by
  refine ⟨?_, ?_, ?_⟩
  · intro h
    show fromDict w d = _
    unfold fromDict
    rw [h]
  · intro v hv hn
    have hcls : getBaseScheduler v = .error (if v.hashable then .valueError else .typeError) := by
      unfold getBaseScheduler
      split
      · exact absurd rfl (hn .h5)
      · exact absurd rfl (hn .mat)
      · exact absurd rfl (hn .npy)
      · rfl
    have : make w (.dict d) = .error (if v.hashable then .valueError else .typeError) := by
      show fromDict w d = _
      unfold fromDict
      rw [hv]
      simp only [hcls, andThen]
    rw [this, ← hashable_iff]
    constructor
    · intro h
      rw [h]
      rfl
    · intro h
      rw [Bool.not_eq_false] at h
      rw [h]
      rfl
  · intro kind hk
    refine ⟨?_, ?_⟩
    · intro hb
      show fromDict w d = _
      unfold fromDict
      rw [hk]
      simp only [getBaseScheduler_ext, andThen]
      split
      · rfl
      · rename_i bs hbs
        split
        · rfl
        · rename_i b hbi
          have : b ≤ 0 := by
            by_contra hc
            exact hb ⟨b, bs, by omega, hbs, hbi⟩
          simp [raiseIf, this]
    · rintro ⟨b, bs, hb, hbs, hbi⟩
      have hle : decide (b ≤ 0) = false := by simpa using hb
      refine ⟨?_, ?_⟩
      · intro v hv hn
        show fromDict w d = _
        unfold fromDict
        rw [hk]
        have hg : getD d "include_images" (.bool false) = v := by unfold getD; rw [hv]; rfl
        simp only [getBaseScheduler_ext, andThen, hbs, hbi, raiseIf, hle, hg]
        cases v with
        | bool x => exact absurd rfl (hn x)
        | _ => rfl
      · intro inc hinc
        have hg : getD d "include_images" (.bool false) = .bool inc := by
          unfold getD
          rcases hinc with ⟨h1, h2⟩ | h1
          · rw [h1, h2]; rfl
          · rw [h1]; rfl
        constructor
        · intro h
          show fromDict w d = _
          unfold fromDict
          rw [hk]
          simp only [getBaseScheduler_ext, andThen, hbs, hbi, raiseIf, hle, hg]
          rcases h with h | h | h
          · simp [sizeOption_bad h]
          · cases h1 : sizeOption d "buffer_size" with
            | error e =>
              have : e = .valueError := by
                have h2 : ¬ ∃ z, NatOption d "buffer_size" z := by
                  rintro ⟨z, hz⟩
                  rw [sizeOption_ok.2 hz] at h1
                  cases h1
                rw [sizeOption_bad h2] at h1
                cases h1
                rfl
              simp [this]
            | ok z => simp [sizeOption_bad h]
          · have hbad : ∀ k e, sizeOption d k = .error e → e = .valueError := by
              intro k e h1
              have h2 : ¬ ∃ z, NatOption d k z := by
                rintro ⟨z, hz⟩
                rw [sizeOption_ok.2 hz] at h1
                cases h1
              rw [sizeOption_bad h2] at h1
              cases h1
              rfl
            cases h1 : sizeOption d "buffer_size" with
            | error e => simp [hbad _ _ h1]
            | ok z =>
              cases h2 : sizeOption d "episode_length" with
              | error e => simp [hbad _ _ h2]
              | ok z' => simp [h]
        · rintro rfl hm ⟨z1, h1⟩ ⟨z2, h2⟩ h3 ⟨root, h4⟩
          show fromDict w d = _
          unfold fromDict
          rw [hk]
          obtain ⟨f, hf⟩ := Option.ne_none_iff_exists'.mp h3
          simp only [getBaseScheduler_ext, andThen, hbs, hbi, raiseIf, hle, hg, sizeOption_ok.2 h1, sizeOption_ok.2 h2, hf, h4]
          simp [hm]

/-- **C42** (partial), the exceptions. If the components raise only the documented exceptions, so does `make`, except
for a `KeyError` when the configuration meets all documented requirements but lacks one of the further keys the
synthetic sampler reads. Missing from C42: these keys, among them the documented-as-optional `seed`, are not in the
list of required keys and `KeyError` is not in the list of exceptions (`C42_refuted`). -/
theorem C42_documented_errors_partial (w : World) (hw : WellBehaved w) (arg : Arg) (e : Exc) (h : make w arg = .error e) :
    Documented e ∨ (e = .keyError ∧ ∃ d, ConfigOf w arg d ∧ (∃ k ∈ samplerKeys, d.lookup k = none) ∧
      ∃ kind b buf len, Accepted d kind b buf len false) := by
  have hV : Documented .valueError := .inr (.inl rfl)
  cases arg with
  | other => cases h; exact .inl (.inl rfl)
  | dict d =>
    rcases fromDict_err hw h with h | ⟨h1, h2, h3⟩
    · exact .inl h
    · exact .inr ⟨h1, d, rfl, h2, h3⟩
  | path f =>
    simp only [make] at h
    split at h
    · cases h; exact .inl hV
    rename_i h1
    split at h
    · cases h; exact .inl (.inr (.inr rfl))
    rename_i h2
    split at h
    · cases h; exact .inl hV
    rename_i h3
    split at h
    · rename_i e' he; cases h; exact .inl (hw.load _ _ he)
    · cases h; exact .inl (.inl rfl)
    · rename_i d hd
      rcases fromDict_err hw h with h | ⟨h4, h5, h6⟩
      · exact .inl h
      · exact .inr ⟨h4, d, ⟨by simpa using h1, by simpa using h2, by simpa using h3, hd⟩, h5, h6⟩

/-- Surroundings in which every component can be built. -/
def World.fine : World where
  pathExists _ := true
  isFile _ := true
  load _ := .ok none
  prngKey v := match v.asInt with | some z => .ok (.seed z.toNat) | none => .error .typeError
  baseInit _ := .ok ()
  episodicInit _ _ _ _ := .ok ()
  realInit _ _ := .ok ()
  loadMask _ := .ok ()
  loadHistogram _ := .ok ()
  synthInit _ _ := .ok ()

/-- A configuration for synthetic images, with episodes of length 3 of 4 flow fields, buffered. -/
def demo : Dict :=
  [("scheduler_class", .str ".mat"), ("batch_size", .int 4), ("flow_fields_per_batch", .int 4),
   ("batches_per_flow_batch", .int 1), ("episode_length", .int 3), ("buffer_size", .int 8), ("seed", .int 7),
   ("file_list", .list [.str "data"]), ("image_shape", .list [.int 64, .int 64]), ("img_offset", .list [.int 10, .int 10]),
   ("seeding_density_range", .list [.int 1, .int 2]), ("p_hide_img1", .int 0), ("p_hide_img2", .int 0),
   ("diameter_ranges", .list [.list [.int 1, .int 2]]), ("diameter_var", .int 1),
   ("intensity_ranges", .list [.list [.int 50, .int 200]]), ("intensity_var", .int 1),
   ("rho_ranges", .list [.list [.int 0, .int 0]]), ("rho_var", .int 0), ("dt", .int 1), ("noise_uniform", .int 0),
   ("noise_gaussian_mean", .int 0), ("noise_gaussian_std", .int 0), ("flow_field_size", .list [.int 100, .int 100]),
   ("resolution", .int 1), ("velocities_per_pixel", .int 1), ("max_speed_x", .int 1), ("max_speed_y", .int 1),
   ("min_speed_x", .int 0), ("min_speed_y", .int 0), ("output_units", .str "pixels")]

/-- The result for it: buffering around episodes around MAT files. -/
example : ∃ p a, make .fine (.dict demo) = .ok (.synthetic p a) ∧
    layers p = [.prefetch 4 8, .episodic 4 3, .base .mat] ∧ episodeKeys p = [.sub (.sub (.seed 7) 2 0) 2 1] :=
  ⟨_, _, rfl, rfl, rfl⟩

example : Accepted demo .mat 4 8 3 false :=
  ⟨rfl, ⟨by decide, _, rfl, rfl⟩, .inl ⟨rfl, rfl⟩, ⟨by decide, .inr ⟨_, rfl, rfl⟩⟩, ⟨by decide, .inr ⟨_, rfl, rfl⟩⟩,
    ⟨_, rfl⟩, by simp, fun _ => ⟨_, rfl, by simp⟩⟩

example : WellBehaved .fine where
  load := by intro _ _ h; cases h
  prngKey := by
    intro v e h
    simp only [World.fine] at h
    split at h
    · cases h
    · cases h; exact .inl rfl
  baseInit := by intro _ _ h; cases h
  episodicInit := by intro _ _ _ _ _ h; cases h
  realInit := by intro _ _ _ h; cases h
  loadMask := by intro _ _ h; cases h
  loadHistogram := by intro _ _ h; cases h
  synthInit := by intro _ _ _ h; cases h

/-- **C42 is false as documented**: without `seed`, which is documented as optional, `make` raises `KeyError`. -/
theorem C42_refuted : Accepted (demo.filter (fun q => q.1 != "seed")) .mat 4 8 3 false ∧
    make .fine (.dict (demo.filter (fun q => q.1 != "seed"))) = .error .keyError ∧ ¬ Documented .keyError := by
  refine ⟨?_, rfl, by simp [Documented]⟩
  exact ⟨rfl, ⟨by decide, _, rfl, rfl⟩, .inl ⟨rfl, rfl⟩, ⟨by decide, .inr ⟨_, rfl, rfl⟩⟩,
    ⟨by decide, .inr ⟨_, rfl, rfl⟩⟩, ⟨_, rfl⟩, by simp, fun _ => ⟨_, rfl, by simp⟩⟩

/-- The refusals occur: a list in place of the class, a tuple with a list in it, a boolean as a number, a negative buffer. -/
example : make .fine (.dict [("scheduler_class", .list [.str ".h5"])]) = .error .typeError ∧
    make .fine (.dict [("scheduler_class", .tuple [.list []])]) = .error .typeError ∧
    make .fine (.dict [("scheduler_class", .tuple [.str ".h5"])]) = .error .valueError ∧
    make .fine (.dict [("scheduler_class", .str ".h5"), ("batch_size", .bool false)]) = .error .valueError ∧
    make .fine (.dict [("scheduler_class", .str ".h5"), ("batch_size", .bool true), ("include_images", .int 1)]) = .error .typeError ∧
    make .fine (.dict [("scheduler_class", .str ".h5"), ("batch_size", .bool true), ("buffer_size", .int (-1))]) = .error .valueError ∧
    make .fine (.dict [("scheduler_class", .str ".h5"), ("batch_size", .int 1), ("include_images", .bool true), ("flow_fields_per_batch", .none)]) =
      .error .valueError :=
  ⟨rfl, rfl, rfl, rfl, rfl, rfl, rfl⟩

/-! ## C43 -/

open Sampler in
/-- **C43** (partial). A synthetic sampler whose number of flow fields per batch is a multiple of the number of devices
delivers a full batch at the first `next()`, provided the scheduler has the flow fields: on a plain scheduler always, on an
episodic one if `flow_fields_per_batch` is also the batch size it was made with. Missing from C43: with `episode_length`
or `buffer_size` set, `make` also accepts other values of `flow_fields_per_batch`, and then no batch is ever delivered
(`C43_refuted`, `C43_mismatch_episodic`, `C43_mismatch_prefetch`); likewise if the devices do not divide the flow
fields (`C43_devices`). -/
theorem C43_first_batch_partial {S F O I Key : Type} (sch : Sched S (FlowBatch F)) (g : Gen F O I) (cfg : Sampler.Cfg)
    (hdiv : cfg.ffpb % cfg.ndevices = 0) :
    (∀ s b s1, sch.getBatch cfg.ffpb s = some (.ok b, s1) → b.flows.length = cfg.ffpb →
      ∃ x s', Sampler.next (ofPlain sch) g cfg (Sampler.init cfg s) = some (.ok x, s') ∧ x.mask = b.mask ∧ x.files = b.files) ∧
    (∀ (rng : Episodic.Rng Key) (ecfg : Episodic.Cfg) (e : Episodic.St S Key) b s1, ecfg.batchSize = cfg.ffpb →
      0 < ecfg.episodeLength → e.t = 0 → sch.getBatch cfg.ffpb e.inner = some (.ok b, s1) → b.flows.length = cfg.ffpb →
      ∃ x s', Sampler.next (ofEpisodic sch rng ecfg) g cfg (Sampler.init cfg e) = some (.ok x, s') ∧
        x.mask = b.mask ∧ x.files = b.files) := by
  constructor
  · intro s b s1 hb hl
    simp only [Sampler.next, episodeOver, ofPlain, getNext, getNext.fetch, Sampler.init, hb, hl]
    simp [hdiv, produce, adaptAll, hl]
  · intro rng ecfg e b s1 hbs hL ht hb hl
    have hover : episodeOver (ofEpisodic sch rng ecfg) e = false := by
      simp [episodeOver, ofEpisodic, Episodic.stepsRemaining, ht]; omega
    have hget : (ofEpisodic sch rng ecfg).getBatch cfg.ffpb e = some (.ok b, { e with t := e.t + 1, inner := s1 }) := by
      simp only [ofEpisodic, Episodic.getBatch]
      rw [if_neg (by simp [hbs]), if_neg (by omega), hb]
    simp only [Sampler.next, Sampler.init, hover, getNext, getNext.fetch, hget, hl]
    simp [hdiv, produce, adaptAll, hl]

open Sampler in
/-- What is missing from C43, for episodes: with another number of flow fields, `next()` on a new sampler raises
`ValueError`, leaves the sampler as it was, and so does so forever. -/
theorem C43_mismatch_episodic {S F O I Key : Type} (sch : Sched S (FlowBatch F)) (g : Gen F O I) (cfg : Sampler.Cfg)
    (rng : Episodic.Rng Key) (ecfg : Episodic.Cfg) (e : Episodic.St S Key) (hne : cfg.ffpb ≠ ecfg.batchSize)
    (hL : 0 < ecfg.episodeLength) (ht : e.t = 0) (n : Nat) :
    Sampler.run (ofEpisodic sch rng ecfg) g cfg (List.replicate n .next) (Sampler.init cfg e) =
      some (List.replicate n (Sampler.Out.raised .valueError), Sampler.init cfg e) := by
  have hover : episodeOver (ofEpisodic sch rng ecfg) e = false := by
    simp [episodeOver, ofEpisodic, Episodic.stepsRemaining, ht]; omega
  have hget : (ofEpisodic sch rng ecfg).getBatch cfg.ffpb e = some (.error .valueError, e) := by
    simp only [ofEpisodic, Episodic.getBatch]
    rw [if_pos hne]
  have hnext : Sampler.next (ofEpisodic sch rng ecfg) g cfg (Sampler.init cfg e) =
      some (.error .valueError, Sampler.init cfg e) := by
    simp only [Sampler.next, Sampler.init, hover, getNext, getNext.fetch, hget]
    simp
  induction n with
  | zero => rfl
  | succ n ih =>
    have hrep : List.replicate (n + 1) Op.next = Op.next :: List.replicate n Op.next := rfl
    rw [hrep, Sampler.run, Sampler.step, hnext]
    simp only [Option.map_some, ih, batchOut]
    rfl

/-- What is missing from C43, for buffering: a request of another size is rejected in every idle state, without any
effect; a request of the right size, on a fresh scheduler whose source has a batch, can be answered. -/
theorem C43_mismatch_prefetch {S B : Type} (p : Prefetch.Src S B) (cfg : Prefetch.Cfg) :
    (∀ n s, n ≠ cfg.batchSize → s.c = .idle → Prefetch.act p cfg (.get n) s = some (s, .valueError)) ∧
    (∀ src b src', p.getBatch src = (.ok b, src') → 0 < cfg.bufferSize → p.episodeLength ≠ some 0 →
      ∃ as s, Prefetch.run p cfg (.get cfg.batchSize :: as) (Prefetch.init src) =
        some (s, [.tau, .tau, .fetched b, .tau, .ret 0 b])) := by
  constructor
  · intro n s hn hs
    simp [Prefetch.act, hs, hn]
  · intro src b src' hb hbuf hL
    refine ⟨[.check, .fetch, .put, .take],
      { src := src', queue := [], stop := false, started := true, startup := false, t := 1, w := .loop, c := .idle }, ?_⟩
    · unfold Prefetch.run
      have : Prefetch.act p cfg (.get cfg.batchSize) (Prefetch.init src) =
          some ({ Prefetch.startWorker (Prefetch.init src) with c := .getWait }, .tau) := by
        simp only [Prefetch.act, Prefetch.init]
        rw [if_neg (by simp)]
        cases hl : p.episodeLength with
        | none => rfl
        | some L =>
          have : L ≠ 0 := by rintro rfl; exact hL hl
          have hlt : ¬ L ≤ 0 := by omega
          exact if_neg hlt
      rw [this]
      simp [Prefetch.run, Prefetch.act, Prefetch.startWorker, Prefetch.init, Prefetch.fetchStep, hb, hbuf]

open Sampler in
/-- What is missing from C43, for several devices: if they do not divide the flow fields, the first `next()` raises
`ValueError` although the scheduler delivered. -/
theorem C43_devices {S F O I : Type} (sch : Sched S (FlowBatch F)) (g : Gen F O I) (cfg : Sampler.Cfg)
    (hdiv : cfg.ffpb % cfg.ndevices ≠ 0) (s : S) (b : FlowBatch F) (s1 : S)
    (hb : sch.getBatch cfg.ffpb s = some (.ok b, s1)) (hl : b.flows.length = cfg.ffpb) :
    ∃ s', Sampler.next (ofPlain sch) g cfg (Sampler.init cfg s) = some (.error .valueError, s') := by
  simp only [Sampler.next, episodeOver, ofPlain, getNext, getNext.fetch, Sampler.init, hb, hl]
  simp [hdiv]

open Sampler in
/-- **C43 is false**: `make` accepts two flow fields per batch with episodes of four, and such a sampler never
delivers anything, whatever the data. -/
theorem C43_refuted : ∃ d p a, make .fine (.dict d) = .ok (.synthetic p a) ∧ layers p = [.episodic 4 3, .base .mat] ∧
    a.flowFieldsPerBatch = .int 2 ∧
    ∀ (S F O I Key : Type) (sch : Sched S (FlowBatch F)) (g : Gen F O I) (rng : Episodic.Rng Key) (ecfg : Episodic.Cfg)
      (e : Episodic.St S Key) (cfg : Sampler.Cfg), ecfg.batchSize = 4 → ecfg.episodeLength = 3 → e.t = 0 → cfg.ffpb = 2 →
      ∀ n, Sampler.run (ofEpisodic sch rng ecfg) g cfg (List.replicate n .next) (Sampler.init cfg e) =
        some (List.replicate n (Sampler.Out.raised .valueError), Sampler.init cfg e) := by
  refine ⟨("flow_fields_per_batch", .int 2) :: ("buffer_size", .int 0) :: demo, _, _, rfl, rfl, rfl, ?_⟩
  intro S F O I Key sch g rng ecfg e cfg h1 h2 h3 h4 n
  exact C43_mismatch_episodic sch g cfg rng ecfg e (by omega) (by omega) h3 n

/-! ## C44 -/

/-- **C44 is false**: the files are shuffled with the same key whatever the seed. For all configurations that differ at
most in the seed, the innermost schedulers get the very same arguments, and work with `PRNGKey(0)`. -/
theorem C44_refuted (w : World) (d d' : Dict) (s s' : Smp) (hsame : ∀ k, k ≠ "seed" → d.lookup k = d'.lookup k)
    (h : make w (.dict d) = .ok s) (h' : make w (.dict d') = .ok s') :
    innermost (pipe s) = innermost (pipe s') ∧ (innermost (pipe s)).usedKey = .seed 0 := by
  obtain ⟨kind, b, buf, len, inc, root, ha, _, _, _, _, shape, hshape, hin⟩ := fromDict_ok h
  obtain ⟨kind', b', buf', len', inc', root', ha', _, _, _, _, shape', hshape', hin'⟩ := fromDict_ok h'
  have hg : ∀ k v, k ≠ "seed" → getD d k v = getD d' k v := by
    intro k v hk; unfold getD; rw [hsame k hk]
  have hkind : kind = kind' := by
    have h1 := ha.schedulerClass
    rw [hsame _ (by decide), ha'.schedulerClass] at h1
    cases kind <;> cases kind' <;> simp_all [ext]
  have hinc : inc = inc' := by
    have h1 := getD_images.2 ha.includeImages
    rw [hg _ _ (by decide), getD_images.2 ha'.includeImages] at h1
    cases h1; rfl
  subst hkind; subst hinc
  have hsh : shape = shape' := by
    rw [hg _ _ (by decide)] at hshape
    rw [hshape] at hshape'
    cases hshape'; rfl
  subst hsh
  rw [hin, hin']
  constructor
  · cases kind <;> simp only [baseFromConfig] <;>
      rw [hg "file_list" _ (by decide), hg "randomize" _ (by decide), hg "loop" _ (by decide)]
  · cases kind <;> rfl

/-- **C44** (partial). The seed does determine the choice of episodes: where the generator makes different keys from
different seeds, so are the keys of the episodic schedulers. Missing from C44: the order of the files in the base
scheduler (`C44_refuted`). -/
theorem C44_episodes_partial (w : World) (hw : ∀ z : Int, w.prngKey (.int z) = .ok (.seed z.toNat)) (d d' : Dict)
    (s s' : Smp) (z z' : Nat) (hz : d.lookup "seed" = some (.int z)) (hz' : d'.lookup "seed" = some (.int z')) (hne : z ≠ z')
    (h : make w (.dict d) = .ok s) (h' : make w (.dict d') = .ok s') :
    (∀ k ∈ episodeKeys (pipe s), k = .sub (.sub (.seed z) 2 0) 2 1) ∧
    (∀ k ∈ episodeKeys (pipe s), ∀ k' ∈ episodeKeys (pipe s'), k ≠ k') := by
  have hk : ∀ (d : Dict) (s : Smp) (z : Nat), d.lookup "seed" = some (.int z) → make w (.dict d) = .ok s →
      ∀ k ∈ episodeKeys (pipe s), k = .sub (.sub (.seed z) 2 0) 2 1 := by
    intro d s z hz h k hk
    obtain ⟨kind, b, buf, len, inc, root, ha, hroot, _, _, hkeys, _⟩ := fromDict_ok h
    have : getD d "seed" (.int 0) = .int z := by unfold getD; rw [hz]; rfl
    rw [this, hw] at hroot
    cases hroot
    rw [hkeys] at hk
    split at hk
    · simpa [KeyTerm.split2] using hk
    · cases hk
  refine ⟨hk d s z hz h, ?_⟩
  intro k hk1 k' hk2 he
  rw [hk d s z hz h k hk1, hk d' s' z' hz' h' k' hk2] at he
  simp at he
  exact hne he

end Verif.Make
