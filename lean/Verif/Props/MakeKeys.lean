import Verif.Proofs.MakeKeys
import Verif.Props.Make
import Verif.Model.Base
import Verif.Model.Episodic
/-!
# Properties of the random keys of a pipeline (C92)
-/

namespace Verif.MakeKeys
open Verif Verif.Make Verif.MakeKeys.Spec Verif.Make.Spec
open Verif.Sampler (From)

/-- The configuration asks for shuffled files. -/
def Shuffled (d : Dict) : Prop := d.lookup "randomize" = some (.bool true)

theorem pipeUses_eq (r : Rounds) (p : Pipe) : pipeUses r p =
    (episodeKeys p).flatMap (rounds .starts r.episodes) ++ pipeUses r (.base (innermost p)) := by
  induction p with
  | base a => rfl
  | episodic p b l k ih =>
    show rounds .starts r.episodes k ++ pipeUses r p = (k :: episodeKeys p).flatMap _ ++ pipeUses r (.base (innermost p))
    rw [ih, List.flatMap_cons, List.append_assoc]
  | prefetch p b n ih => exact ih

/-- The innermost scheduler built by `make` shuffles with keys that come from `PRNGKey(0)`, whatever the seed. -/
theorem baseUses_eq {d : Dict} {kind : Kind} {kw : Kw} (hkw : kw.randomize = getD d "randomize" (.bool false)) (r : Rounds) :
    (Shuffled d → pipeUses r (.base (baseFromConfig kind kw)) = rounds .shuffle r.shuffles (.seed 0)) ∧
    (¬ Shuffled d → pipeUses r (.base (baseFromConfig kind kw)) = []) := by
  have h1 : (baseFromConfig kind kw).randomize = getD d "randomize" (.bool false) := by cases kind <;> exact hkw
  have h2 : (baseFromConfig kind kw).usedKey = .seed 0 := by cases kind <;> rfl
  unfold pipeUses Shuffled
  rw [h1, h2]
  constructor
  · intro h; simp [getD, h]
  · intro h
    cases hl : d.lookup "randomize" with
    | none => simp [getD, hl]
    | some v =>
      simp only [getD, hl, Option.getD_some]
      split
      · rw [hl] at h; simp_all
      · rfl

/-- **C92** (partial): exactly when the random choices of a pipeline are independent. For every dictionary `make` accepts,
with a seed for which `PRNGKey(seed)` is `PRNGKey(z)`, any numbers of devices and of images per device, and any numbers of
shuffles, selections of episodes and image batches: no key is drawn from twice, and none is both drawn from and split,
except in these cases. Files are shuffled, the seed is 0, and images are generated, or episodes were selected and the
files shuffled twice; images are generated on two devices, at least two batches, and there are episodes. Missing from C92:
these cases. -/
theorem C92_independent_iff_partial (w : World) (d : Dict) (s : Smp) (z devices perDevice : Nat) (r : Rounds)
    (h : make w (.dict d) = .ok s) (hz : w.prngKey (getD d "seed" (.int 0)) = .ok (.seed z)) :
    ∃ kind b buf len inc, Accepted d kind b buf len inc ∧ (isReal s = inc) ∧
      (Independent (uses w d devices perDevice r s) ↔
        ¬ (Shuffled d ∧ z = 0 ∧ inc = false ∧ 0 < r.shuffles ∧ 0 < r.batches) ∧
        ¬ (Shuffled d ∧ z = 0 ∧ 0 < len ∧ 1 < r.shuffles ∧ 0 < r.episodes) ∧
        ¬ (inc = false ∧ devices = 2 ∧ 0 < len ∧ 0 < r.episodes ∧ 1 < r.batches)) := by
  obtain ⟨kind, b, buf, len, inc, root, hacc, hroot, hreal, _, hep, shape, _, hin⟩ := fromDict_ok (w := w) (d := d) h
  rw [hz] at hroot
  cases hroot
  refine ⟨kind, b, buf, len, inc, hacc, hreal, ?_⟩
  have hlen : sizeOption d "episode_length" = .ok len := sizeOption_ok.2 hacc.episodeLength
  -- the four lists
  obtain ⟨hsh, hnsh⟩ := baseUses_eq (d := d) (kind := kind)
    (kw := { fileList := getD d "file_list" (.list []), randomize := getD d "randomize" (.bool false),
             loop := getD d "loop" (.bool true), key := (KeyTerm.seed z).split2.2, includeImages := inc,
             outputShape := shape }) rfl r
  have hpipe : pipeUses r (schedulerOf s) =
      (if 0 < len then rounds .starts r.episodes (side (.seed z) 1) else []) ++ pipeUses r (.base (innermost (pipe s))) := by
    have e : schedulerOf s = pipe s := by cases s <;> rfl
    rw [e, pipeUses_eq, hep]
    congr 1
    split
    · simp only [List.flatMap_cons, List.flatMap_nil, List.append_nil]; rfl
    · rfl
  have hsmp : samplerUses w devices perDevice r s =
      if inc = false then (Sampler.runUses devices perDevice r.batches (.seed z)).map ofImage else [] := by
    cases s with
    | real p n =>
      have : inc = true := by rw [← hreal]; rfl
      simp [samplerUses, this]
    | synthetic p a =>
      have hi : inc = false := by rw [← hreal]; rfl
      have hs := fromDict_seed (w := w) (d := d) h
      have : w.prngKey a.seed = .ok (.seed z) := by rw [← hz]; simp [getD, hs]
      simp [samplerUses, this, hi]
  unfold uses
  rw [hz, hlen, hpipe, hsmp, hin]
  simp only
  generalize hM : makeUses (KeyTerm.seed z) len = M
  generalize hE : (if 0 < len then rounds .starts r.episodes (side (.seed z) 1) else []) = E
  generalize hI : (if inc = false then (Sampler.runUses devices perDevice r.batches (.seed z)).map ofImage else []) = I
  have hMi : Independent M := by rw [← hM]; exact makeUses_independent _ _
  have hEi : Independent E := by
    rw [← hE]
    split
    · exact independent_of_nodup (rounds_nodup _ _ _)
    · exact independent_of_nodup List.nodup_nil
  have hIi : Independent I := by
    rw [← hI]
    split
    · exact independent_of_nodup (image_nodup _ _ _ _)
    · exact independent_of_nodup List.nodup_nil
  have hME : Apart M E := by
    rw [← hE, ← hM]
    split
    · refine makeUses_apart fun x hx => .inl ⟨1, rounds_from _ _ _ _ (keys_iff.2 (.inl hx))⟩
    · exact apart_nil _
  have hMI : Apart M I := by
    rw [← hI, ← hM]
    split
    · refine makeUses_apart fun x hx => .inl ?_
      obtain ⟨t, _, j, _, hf⟩ := image_draw_cases _ _ _ _ _ hx
      exact ⟨t, ((From.refl _).sub _ _).trans hf⟩
    · exact apart_nil _
  have hEI : Apart E I ↔ ¬ (inc = false ∧ devices = 2 ∧ 0 < len ∧ 0 < r.episodes ∧ 1 < r.batches) := by
    rw [← hE, ← hI]
    by_cases hl : 0 < len
    · by_cases hi : inc = false
      · rw [if_pos hl, if_pos hi, starts_image_apart]
        simp [hl, hi]
      · rw [if_neg hi]
        simp [apart_nil, hi]
    · rw [if_neg hl, apart_comm]
      simp [apart_nil, hl]
  have hEfrom : ∀ x ∈ keys E, From (.seed z) x := by
    rw [← hE]
    split
    · intro x hx
      exact ((from_chain (.seed z) (Nat.zero_le 1)).sub 2 1).trans (rounds_from _ _ _ _ hx)
    · intro x hx; cases hx
  have hIfrom : ∀ x ∈ keys I, From (.seed z) x := by
    rw [← hI]
    split
    · intro x hx; exact image_from _ _ _ _ _ hx
    · intro x hx; cases hx
  by_cases hs : Shuffled d
  · rw [hsh hs]
    generalize hB : rounds .shuffle r.shuffles (.seed 0) = B
    have hBi : Independent B := by rw [← hB]; exact independent_of_nodup (rounds_nodup _ _ _)
    have hBfrom : ∀ x ∈ keys B, From (.seed 0) x := by rw [← hB]; exact rounds_from _ _ _
    have hMB : Apart M B := by
      by_cases h0 : z = 0
      · rw [← hM, ← hB, h0]
        refine makeUses_apart fun x hx => .inl ?_
        obtain ⟨i, _, rfl⟩ := (draw_rounds (by simp)).1 hx
        exact ⟨i, .refl _⟩
      · refine foreign_apart (x := z) (y := 0) h0 ?_ hBfrom
        rw [← hM]
        intro k hk
        obtain ⟨i, rfl⟩ := makeUses_keys hk
        exact from_chain _ (Nat.zero_le i)
    have hEB : Apart E B ↔ ¬ (z = 0 ∧ 0 < len ∧ 1 < r.shuffles ∧ 0 < r.episodes) := by
      by_cases h0 : z = 0
      · subst h0
        by_cases hl : 0 < len
        · rw [← hE, ← hB, if_pos hl, apart_comm, shuffle_starts_apart]
          simp [hl]
        · rw [← hE, if_neg hl, apart_comm]
          simp [apart_nil, hl]
      · have := foreign_apart h0 hEfrom hBfrom
        simp [h0, this]
    have hBI : Apart B I ↔ ¬ (z = 0 ∧ inc = false ∧ 0 < r.shuffles ∧ 0 < r.batches) := by
      by_cases h0 : z = 0
      · subst h0
        by_cases hi : inc = false
        · rw [← hB, ← hI, if_pos hi, shuffle_image_apart]
          simp [hi]
        · rw [← hI, if_neg hi]
          simp [apart_nil, hi]
      · have := foreign_apart (fun h => h0 h.symm) hBfrom hIfrom
        simp [h0, this]
    rw [independent_append, independent_append, independent_append, apart_append, apart_append, @apart_comm (E ++ B),
      apart_append, @apart_comm I E, @apart_comm I B, hEB, hEI, hBI]
    simp only [hMi, hEi, hBi, hIi, hME, hMB, hMI, hs, true_and, and_true]
    tauto
  · rw [hnsh hs]
    rw [List.append_nil, independent_append, independent_append, apart_append, hEI]
    simp only [hMi, hEi, hIi, hME, hMI, hs, true_and, false_and, not_false_eq_true, and_true]

/-- **C92 is false with the default seed**: with `seed` 0 or none, files shuffled and episodes (the first selection of episodes already
shuffles a second time), the key of that shuffle is the one the episodes are selected with. -/
theorem C92_refuted_shuffle (w : World) (d : Dict) (s : Smp) (devices perDevice : Nat) (r : Rounds)
    (h : make w (.dict d) = .ok s) (hz : w.prngKey (getD d "seed" (.int 0)) = .ok (.seed 0)) (hs : Shuffled d)
    (hl : ∃ len, NatOption d "episode_length" len ∧ 0 < len) (h1 : 1 < r.shuffles) (h2 : 0 < r.episodes) :
    ¬ Independent (uses w d devices perDevice r s) := by
  obtain ⟨kind, b, buf, len, inc, hacc, _, hiff⟩ := C92_independent_iff_partial w d s 0 devices perDevice r h hz
  obtain ⟨len', hl', hpos⟩ := hl
  have e : len = len' := by
    have h1 := sizeOption_ok.2 hacc.episodeLength
    rw [sizeOption_ok.2 hl'] at h1
    cases h1; rfl
  subst e
  rw [hiff]
  rintro ⟨_, h3, _⟩
  exact h3 ⟨hs, rfl, hpos, h1, h2⟩

/-- **C92 is false on two devices**: whatever the seed, with episodes, the key of the second selection of episodes is also the
key the seeding densities of the first device are drawn from in the second batch. -/
theorem C92_refuted_devices (w : World) (d : Dict) (p : Pipe) (a : SynthArgs) (z perDevice : Nat) (r : Rounds)
    (h : make w (.dict d) = .ok (.synthetic p a)) (hz : w.prngKey (getD d "seed" (.int 0)) = .ok (.seed z))
    (hl : ∃ len, NatOption d "episode_length" len ∧ 0 < len) (h1 : 1 < r.episodes) (h2 : 1 < r.batches) :
    ∃ k, (Use.starts, k) ∈ uses w d 2 perDevice r (.synthetic p a) ∧
      (Use.image .density, k) ∈ uses w d 2 perDevice r (.synthetic p a) := by
  obtain ⟨kind, b, buf, len, inc, root, hacc, hroot, hreal, _, hep, shape, _, hin⟩ := fromDict_ok (w := w) (d := d) h
  rw [hz] at hroot
  cases hroot
  obtain ⟨len', hl', hpos⟩ := hl
  have e : len = len' := by
    have h1 := sizeOption_ok.2 hacc.episodeLength
    rw [sizeOption_ok.2 hl'] at h1
    cases h1; rfl
  subst e
  refine ⟨side (side (.seed z) 1) 1, ?_, ?_⟩
  · unfold uses
    refine List.mem_append_right _ (List.mem_append_left _ ?_)
    show _ ∈ pipeUses r p
    rw [pipeUses_eq]
    refine List.mem_append_left _ ?_
    have hep' : episodeKeys p = _ := hep
    rw [hep', if_pos hpos]
    simp only [List.flatMap_cons, List.flatMap_nil, List.append_nil]
    exact (mem_rounds _ _ _ _).2 ⟨1, h1, .inr rfl⟩
  · unfold uses
    refine List.mem_append_right _ (List.mem_append_right _ ?_)
    have hs := fromDict_seed (w := w) (d := d) h
    have : w.prngKey a.seed = .ok (.seed z) := by rw [← hz]; simp [getD, hs]
    simp only [samplerUses, this]
    exact image_density 2 perDevice (.seed z) h2 (j := 0) (by omega)

/-! ## The lists of uses are those of the model -/

/-- After `n` resets of a shuffling base scheduler its key is the one `rounds` continues with, and its files are in an
order drawn with the key `rounds` lists. -/
theorem shuffle_keys {V D : Type} (w : Base.World V D KeyTerm) (hw : w.split = KeyTerm.split2) (c : Base.Cfg)
    (hc : c.randomize = true) (fl : List String) (k : KeyTerm) : ∀ n,
    ((Base.reset w c)^[n] (Base.init w c fl k)).key = chain k (n + 1) ∧
    ∃ old : List String, ((Base.reset w c)^[n] (Base.init w c fl k)).fileList = Base.pick old (w.perm (side k n) old.length)
  | 0 => by
    simp [Base.init, Base.shuffle, hc, hw, chain, side]
    exact ⟨fl, rfl⟩
  | n + 1 => by
    obtain ⟨h1, _⟩ := shuffle_keys w hw c hc fl k n
    rw [Function.iterate_succ_apply']
    generalize (Base.reset w c)^[n] (Base.init w c fl k) = s at h1
    simp only [Base.reset, Base.shuffle, hc, if_true, hw, h1]
    exact ⟨rfl, s.fileList, rfl⟩

/-- A selection of episodes keeps the first half of the key, and what is selected depends on the draw with the second half
only. -/
theorem starts_keys {S B : Type} (sch : Sched S B) (rng : Episodic.Rng KeyTerm) (hr : rng.split = KeyTerm.split2)
    (cfg : Episodic.Cfg) (e : Episodic.St S KeyTerm) (k : KeyTerm) (n : Nat) (hk : e.key = chain k n) :
    (∀ e', Episodic.sample sch rng cfg e = .ok e' → e'.key = chain k (n + 1)) ∧
    ∀ rng' : Episodic.Rng KeyTerm, rng'.split = KeyTerm.split2 → rng'.choice (side k n) = rng.choice (side k n) →
      Episodic.sample sch rng' cfg e = Episodic.sample sch rng cfg e := by
  constructor
  · intro e' h
    unfold Episodic.sample at h
    split at h
    · cases h
    · cases h
      simp [hr, hk, chain]
  · intro rng' hr' hch
    have : rng'.choice (chain k n).split2.2 = rng.choice (chain k n).split2.2 := hch
    unfold Episodic.sample
    simp only [hr, hr', hk, this]

/-! ## Instances -/

/-- The configuration of `Make.demo`, with other values for some keys. -/
def demoWith (l : List (String × Val)) : Dict := l ++ demo

/-- A sampler of real images with shuffled episodes, without a seed. -/
def demoReal : Dict :=
  [("scheduler_class", .str ".mat"), ("batch_size", .int 4), ("flow_fields_per_batch", .int 4), ("episode_length", .int 3),
   ("include_images", .bool true), ("randomize", .bool true), ("image_shape", .list [.int 64, .int 64])]

/-- Seed 7, shuffled, one device: independent, whatever happens; here three shuffles, two selections and two batches. -/
example : ∃ s, make .fine (.dict (demoWith [("randomize", .bool true)])) = .ok s ∧
    (uses .fine (demoWith [("randomize", .bool true)]) 1 2 ⟨3, 2, 2⟩ s).length = 108 ∧
    Independent (uses .fine (demoWith [("randomize", .bool true)]) 1 2 ⟨3, 2, 2⟩ s) := by
  refine ⟨_, rfl, rfl, ?_⟩
  obtain ⟨_, _, _, _, _, _, _, h⟩ := C92_independent_iff_partial .fine (demoWith [("randomize", .bool true)]) _ 7 1 2
    ⟨3, 2, 2⟩ rfl rfl
  rw [h]
  simp

/-- Without a seed, real images, shuffled episodes: right after the construction two things depend on one key. -/
example : ∃ s, make .fine (.dict demoReal) = .ok s ∧ ¬ Independent (uses .fine demoReal 1 1 ⟨2, 1, 0⟩ s) ∧
    (Use.shuffle, .sub (.sub (.seed 0) 2 0) 2 1) ∈ uses .fine demoReal 1 1 ⟨2, 1, 0⟩ s ∧
    (Use.split, .sub (.sub (.seed 0) 2 0) 2 1) ∈ uses .fine demoReal 1 1 ⟨2, 1, 0⟩ s := by
  refine ⟨_, rfl, ?_, ?_, ?_⟩
  · exact C92_refuted_shuffle .fine demoReal _ 1 1 ⟨2, 1, 0⟩ rfl rfl rfl ⟨3, ⟨by decide, .inr ⟨_, rfl, rfl⟩⟩, by decide⟩
      (by decide) (by decide)
  · decide
  · decide

/-- Two devices: two selections of episodes and two batches share the key of a draw. -/
example : ∃ p a, make .fine (.dict demo) = .ok (.synthetic p a) ∧
    (Use.starts, .sub (.sub (.sub (.sub (.seed 7) 2 0) 2 1) 2 0) 2 1) ∈ uses .fine demo 2 1 ⟨1, 2, 2⟩ (.synthetic p a) ∧
    (Use.image .density, .sub (.sub (.sub (.sub (.seed 7) 2 0) 2 1) 2 0) 2 1) ∈
      uses .fine demo 2 1 ⟨1, 2, 2⟩ (.synthetic p a) := by
  refine ⟨_, _, rfl, ?_, ?_⟩ <;> decide

end Verif.MakeKeys
