import Verif.Proofs.Reader
import Verif.Props.SynthMat
/-!
# Property C156: every history of calls, from the configuration

`Spec/Reader.lean` says what `Shown` and `Makes` mean.
-/

namespace Verif.Whole
open Verif Verif.Whole Verif.Whole.Spec

/-- A real-image batch of `n` rows shows the pairs `l`, and carries no episode flags. -/
def PairBatch (n h w : Nat) (l : List (String × RealPipeline.Pair)) (x : Sampler.RealBatch ℚ) : Prop :=
  RealPipeline.ShowsPairs n h w l x ∧ x.done = none

/-! ## Lemmas -/

theorem pairs_setting {io : Formats.MatIO} {hh ww : Nat} {files : List String} {content : String → Option RealPipeline.Pair}
    (hc : RealPipeline.Contents io hh ww files content) (hnd : files.Nodup) {split : KeyTerm → KeyTerm × KeyTerm} {perm : KeyTerm → Nat → List Nat}
    {c : Base.Cfg} (hrnd : c.randomize = true → ∀ k n, (perm k n).Perm (List.range n))
    (hne : c.loop = true → RealPipeline.pairsOf content files ≠ []) :
    Reader.Setting (Formats.matWorld io ⟨true, hh, ww⟩ split perm) c files (fun p => RealPipeline.pairsOf content [p]) RealPipeline.toSample
      [hh, ww, 2] (some [hh, ww]) (some [hh, ww]) true := by
  have e0 : ∀ p, (RealPipeline.pairsOf content [p]).map RealPipeline.toSample = RealPipeline.samplesOf content p := by
    intro p
    unfold RealPipeline.pairsOf RealPipeline.samplesOf
    cases h : content p <;> simp [h]
  have e1 : files.flatMap (fun p => RealPipeline.pairsOf content [p]) = RealPipeline.pairsOf content files := by
    unfold RealPipeline.pairsOf
    rw [List.filterMap_eq_flatMap_toList]
    congr 1
  refine ⟨hnd, hrnd, fun p hp => ?_, fun l hl => ?_, fun h => by rw [e1]; exact hne h⟩
  · rw [e0]; exact RealPipeline.contents_yields hc split perm p hp
  · have hu := RealPipeline.contents_uniform hc
    rw [RealPipeline.flatMap_samplesOf, ← e1] at hu
    exact Base.uniform_sub hu (fun x hx => by
      obtain ⟨q, hq, rfl⟩ := List.mem_map.mp hx
      exact List.mem_map_of_mem (hl q hq))

theorem h5_setting {files : String → Formats.H5File ℚ} {X Z C : Nat} {fl : List String} {content : String → Option (Arr ℚ)}
    (hc : SynthPipeline.Contents files X Z C fl content) (hnd : fl.Nodup) {split : KeyTerm → KeyTerm × KeyTerm} {perm : KeyTerm → Nat → List Nat}
    {c : Base.Cfg} (hrnd : c.randomize = true → ∀ k n, (perm k n).Perm (List.range n))
    (hne : c.loop = true → SynthPipeline.fieldsOf content fl ≠ []) :
    Reader.Setting (Formats.h5World files split perm) c fl (fun p => SynthPipeline.fieldsOf content [p]) (SynthPipeline.toSample content)
      [X, Z, C] none none true := by
  have e1 : fl.flatMap (fun p => SynthPipeline.fieldsOf content [p]) = SynthPipeline.fieldsOf content fl := by
    unfold SynthPipeline.fieldsOf
    congr 1
    funext p
    rw [List.flatMap_cons, List.flatMap_nil, List.append_nil]
  refine ⟨hnd, hrnd, fun p hp => SynthPipeline.contents_yields hc split perm p hp, fun l hl => ?_, fun h => by rw [e1]; exact hne h⟩
  rw [e1] at hl
  exact SynthPipeline.contents_uniform hc hl

theorem any_setting {D : Type} {w : Base.World ℚ D KeyTerm} {X Z C : Nat} {fl : List String} {content : String → List (Arr ℚ)}
    (hc : SynthAny.Reads w X Z C fl content) (hnd : fl.Nodup) {c : Base.Cfg} (hrnd : c.randomize = true → Base.PermOK w)
    (hne : c.loop = true → SynthAny.fieldsOf content fl ≠ []) :
    Reader.Setting w c fl (fun p => SynthAny.fieldsOf content [p]) SynthAny.toSample [X, Z, C] none none true := by
  have e0 : ∀ p, SynthAny.fieldsOf content [p] = (content p).map (fun a => (p, a)) := by
    intro p
    unfold SynthAny.fieldsOf
    rw [List.flatMap_cons, List.flatMap_nil, List.append_nil]
  have e1 : fl.flatMap (fun p => SynthAny.fieldsOf content [p]) = SynthAny.fieldsOf content fl := by
    simp only [e0]
    rfl
  refine ⟨hnd, hrnd, fun p hp => ?_, fun l hl => ?_, fun h => by rw [e1]; exact hne h⟩
  · rw [e0, List.map_map]
    exact (hc p hp).1
  · rw [e1] at hl
    exact SynthAny.contents_uniform hc hl

theorem Reader.start {α D K O I : Type} {w : Base.World ℚ D K} {c : Base.Cfg} {fl : List String} {items : String → List α}
    {toS : α → Base.Sample ℚ} {fsh : List Nat} {o1 o2 : Option (List Nat)} {named : Bool}
    (h : Reader.Setting w c fl items toS fsh o1 o2 named) (g : Sampler.Gen (Adapter.Field2 ℚ) O I) {cfg : Sampler.Cfg} (hok : cfg.OK)
    (hdv : cfg.ffpb % cfg.ndevices = 0) {fuel : Nat} (hf : 2 * fl.length < fuel) (key : K) :
    ∃ first, Reader.IsPass fl c.randomize items first ∧ ∀ ops, ∃ outs s',
      Sampler.run (Sampler.ofPlain (Synthetic.fieldSched w c fuel)) g cfg ops (Sampler.init cfg (Base.init w c fl key)) = some (outs, s') ∧
      Reader.Makes cfg.ffpb cfg.bpfb c.loop (Reader.IsPass fl c.randomize items) (Reader.MadeBy fl items toS g cfg) first none 0 0 ops outs := by
  obtain ⟨first, p1, p2⟩ := h.at_init key
  exact ⟨first, p1, fun ops => h.sampler_run g hok hdv hf ops first none 0 0 _ ⟨p2, rfl, rfl, rfl⟩⟩

/-! ## C156 -/

/-- **C156**, images from MAT files: from a configuration without episodes and buffer that `make` accepts, every history of calls on the sampler
that comes out is one of a reader of the pairs in the usable files of `file_list`, `batch_size` at a time. -/
theorem C156_real (E : Env) (arg : Make.Arg) (d : Make.Dict) (hd : Make.Spec.ConfigOf (world E) arg d) (s : Make.Smp)
    (h : Make.make (world E) arg = .ok s) (hp : Plain d .mat true) :
    ∃ files rnd lp n hh ww, FilesOf E .mat d files ∧ Make.Spec.ValueOr d "randomize" (.bool false) (.bool rnd) ∧
      Make.Spec.ValueOr d "loop" (.bool true) (.bool lp) ∧ Has d "batch_size" (IsInt (n : Nat)) ∧ 0 < n ∧ IsSize d hh ww ∧
      ∀ content, RealPipeline.Contents E.mat hh ww files content → files.Nodup → (lp = true → RealPipeline.pairsOf content files ≠ []) →
        (rnd = true → ∀ k n, (E.perm k n).Perm (List.range n)) → ∀ fuel, 2 * files.length < fuel →
        ∃ first, Reader.IsPass files rnd (fun p => RealPipeline.pairsOf content [p]) first ∧ ∀ ops, ∃ outs,
          realCalls E fuel ops s = some outs ∧
          Reader.Shown n lp (Reader.IsPass files rnd (fun p => RealPipeline.pairsOf content [p])) (PairBatch n hh ww) first ops outs := by
  obtain ⟨files, c, b, hh, ww, a, f1, f2, f3, f4, f5, f6, f7, f8, f9, f10⟩ := mat_made hd h hp
  refine ⟨files, c.randomize, c.loop, b.toNat, hh, ww, f1, f2, f3, by rwa [Int.toNat_of_nonneg (by omega)], by omega, f6, ?_⟩
  intro content hc hnd hne hrnd fuel hfuel
  have hset := pairs_setting (split := KeyTerm.split2) hc hnd hrnd hne
  have hpos : 0 < b.toNat := by omega
  obtain ⟨first, p1, p2⟩ := hset.at_init (.seed 0)
  refine ⟨first, p1, fun ops => ?_⟩
  obtain ⟨outs, s', r1, r2⟩ := hset.real_run hpos hfuel ops first _ p2
  refine ⟨outs, ?_, Reader.Shown.mono (fun l x hx => ?_) ops first outs r2⟩
  · rw [f7]
    simp only [realCalls]
    rw [f8]
    simp only [f9, f10]
    rw [r1]
    rfl
  · obtain ⟨x1, x2, x3, y, x4, rfl⟩ := hx
    refine ⟨RealPipeline.shows_real x1 (fun q hq => ?_) x4 x2, rfl⟩
    obtain ⟨p, hp, hq⟩ := List.mem_flatMap.mp (x3 q hq)
    have := hc p hp
    unfold RealPipeline.pairsOf at hq
    cases hcp : content p with
    | none => rw [List.filterMap_cons, hcp] at hq; cases hq
    | some t =>
      rw [hcp] at this
      rw [List.filterMap_cons, hcp] at hq
      simp only [Option.map_some, List.filterMap_nil, List.mem_singleton] at hq
      subst hq
      exact ⟨this.2.1, this.2.2.1, this.2.2.2.1⟩

/-- **C156**, synthetic images from HDF5 files: every history of calls is one of a reader of the flow fields in the files, `flow_fields_per_batch`
at a time, that makes `batches_per_flow_batch` image batches from each of these. -/
theorem C156_h5 (E : Env) (arg : Make.Arg) (d : Make.Dict) (hd : Make.Spec.ConfigOf (world E) arg d) (s : Make.Smp)
    (h : Make.make (world E) arg = .ok s) (hp : Plain d .h5 false) :
    ∃ files rnd lp a m, FilesOf E .h5 d files ∧ Make.Spec.ValueOr d "randomize" (.bool false) (.bool rnd) ∧
      Make.Spec.ValueOr d "loop" (.bool true) (.bool lp) ∧ Configured E d a ∧ Synthetic.make E.fl E.fl32 a = .ok m ∧ Sizes a m.cfg ∧
      ∀ X Z C content, SynthPipeline.Contents E.h5 X Z C files content → 2 ≤ C → files.Nodup → (lp = true → SynthPipeline.fieldsOf content files ≠ []) →
        (rnd = true → ∀ k n, (E.perm k n).Perm (List.range n)) → a.ndevices ∣ m.cfg.ffpb → ∀ fuel, 2 * files.length < fuel →
        ∃ first, Reader.IsPass files rnd (fun p => SynthPipeline.fieldsOf content [p]) first ∧ ∀ ops, ∃ outs,
          synthRun E fuel ops s = some outs ∧
          Reader.Makes m.cfg.ffpb m.cfg.bpfb lp (Reader.IsPass files rnd (fun p => SynthPipeline.fieldsOf content [p]))
            (fun n l x => SynthPipeline.MadeOf (Synthetic.gen E.fl E.fl32 E.rand a m) m.cfg X Z content n l x ∧ x.done = none) first none 0 0 ops outs := by
  obtain ⟨files, c, a, m, f1, f2, f3, f4, f5, f6, f7, f8⟩ := h5_built hd h hp
  refine ⟨files, c.randomize, c.loop, a, m, f1, f2, f3, f4, f5, sizes_of_make f5 f6, ?_⟩
  intro X Z C content hc hC hnd hne hrnd hdv fuel hfuel
  obtain ⟨_, _, _, g4, _⟩ := Synthetic.make_ok f5
  have hok := Sampler.Cfg.ok_of_make g4
  have hnd' : m.cfg.ndevices = a.ndevices := by obtain ⟨_, _, _, _, _, _, e⟩ := Sampler.Cfg.make_ok g4; rw [e]
  have hset := h5_setting (split := KeyTerm.split2) hc hnd hrnd hne
  obtain ⟨first, p1, p2⟩ := Reader.start hset (Synthetic.gen E.fl E.fl32 E.rand a m) hok (by rw [hnd']; exact Nat.mod_eq_zero_of_dvd hdv) hfuel (.seed 0)
  refine ⟨first, p1, fun ops => ?_⟩
  obtain ⟨outs, s', r1, r2⟩ := p2 ops
  refine ⟨outs, ?_, Reader.Makes.mono (fun n l x hx => ?_) ops first none 0 0 outs r2⟩
  · rw [f7]
    unfold runOn h5World
    rw [r1]
    rfl
  · obtain ⟨x1, x2, x3, x4, b, x5, x6⟩ := hx
    refine ⟨SynthPipeline.madeOf hC hc _ _ x1 x2 (fun q hq => ?_) x5 x6, x4⟩
    obtain ⟨p, hp, hq⟩ := List.mem_flatMap.mp (x3 q hq)
    rw [SynthPipeline.fieldsOf, List.flatMap_cons, List.flatMap_nil, List.append_nil] at hq
    exact List.mem_flatMap.mpr ⟨p, hp, hq⟩

/-- What the theorems for MAT and NumPy files say of the sampler `s`. -/
def AnyHistory (E : Env) (s : Make.Smp) (fuel : Nat) (files : List String) (rnd lp : Bool) (a : Synthetic.Args) (m : Synthetic.Made) (X Z : Nat)
    (content : String → List (Arr ℚ)) : Prop :=
  ∃ first, Reader.IsPass files rnd (fun p => SynthAny.fieldsOf content [p]) first ∧ ∀ ops, ∃ outs,
    synthRun E fuel ops s = some outs ∧
    Reader.Makes m.cfg.ffpb m.cfg.bpfb lp (Reader.IsPass files rnd (fun p => SynthAny.fieldsOf content [p]))
      (fun n l x => SynthAny.MadeOf (Synthetic.gen E.fl E.fl32 E.rand a m) m.cfg X Z n l x ∧ x.done = none) first none 0 0 ops outs

theorem any_history {D : Type} {E : Env} {s : Make.Smp} {w : Base.World ℚ D KeyTerm} {X Z C : Nat} (hC : 2 ≤ C) {c : Base.Cfg}
    (hperm : c.randomize = true → Base.PermOK w) {files : List String} (hnd : files.Nodup) {content : String → List (Arr ℚ)}
    (hc : SynthAny.Reads w X Z C files content) (hne : c.loop = true → SynthAny.fieldsOf content files ≠ [])
    {a : Synthetic.Args} {m : Synthetic.Made} (f5 : Synthetic.make E.fl E.fl32 a = .ok m)
    (hdv : a.ndevices ∣ m.cfg.ffpb) {fuel : Nat} (hfuel : 2 * files.length < fuel)
    (f7 : ∀ ops, synthRun E fuel ops s = runOn E w fuel a m c files (.seed 0) ops) :
    AnyHistory E s fuel files c.randomize c.loop a m X Z content := by
  obtain ⟨_, _, _, g4, _⟩ := Synthetic.make_ok f5
  have hok := Sampler.Cfg.ok_of_make g4
  have hnd' : m.cfg.ndevices = a.ndevices := by obtain ⟨_, _, _, _, _, _, e⟩ := Sampler.Cfg.make_ok g4; rw [e]
  have hset := any_setting hc hnd hperm hne
  obtain ⟨first, p1, p2⟩ := Reader.start hset (Synthetic.gen E.fl E.fl32 E.rand a m) hok (by rw [hnd']; exact Nat.mod_eq_zero_of_dvd hdv) hfuel (.seed 0)
  refine ⟨first, p1, fun ops => ?_⟩
  obtain ⟨outs, s', r1, r2⟩ := p2 ops
  refine ⟨outs, ?_, Reader.Makes.mono (fun n l x hx => ?_) ops first none 0 0 outs r2⟩
  · rw [f7]
    unfold runOn
    rw [r1]
    rfl
  · obtain ⟨x1, x2, x3, x4, b, x5, x6⟩ := hx
    refine ⟨SynthAny.madeOf hC hc _ _ x1 x2 (fun q hq => ?_) x5 x6, x4⟩
    obtain ⟨p, hp, hq⟩ := List.mem_flatMap.mp (x3 q hq)
    rw [SynthAny.fieldsOf, List.flatMap_cons, List.flatMap_nil, List.append_nil] at hq
    exact List.mem_flatMap.mpr ⟨p, hp, hq⟩

/-- **C156**, synthetic images from MAT files: likewise. -/
theorem C156_mat (E : Env) (arg : Make.Arg) (d : Make.Dict) (hd : Make.Spec.ConfigOf (world E) arg d) (s : Make.Smp)
    (h : Make.make (world E) arg = .ok s) (hp : Plain d .mat false) (hpil : Formats.PilOK E.mat) :
    ∃ files rnd lp a m, FilesOf E .mat d files ∧ Make.Spec.ValueOr d "randomize" (.bool false) (.bool rnd) ∧
      Make.Spec.ValueOr d "loop" (.bool true) (.bool lp) ∧ Configured E d a ∧ Synthetic.make E.fl E.fl32 a = .ok m ∧ Sizes a m.cfg ∧
      (Ordinary E.mat files → ∃ content, MatContents E.mat 256 256 files content ∧
        (files.Nodup → (lp = true → SynthAny.fieldsOf content files ≠ []) → (rnd = true → ∀ k n, (E.perm k n).Perm (List.range n)) →
          a.ndevices ∣ m.cfg.ffpb → ∀ fuel, 2 * files.length < fuel → AnyHistory E s fuel files rnd lp a m 256 256 content)) := by
  obtain ⟨files, c, a, m, f1, f2, f3, f4, f5, f6, f7, f8⟩ := any_built hd h hp
  refine ⟨files, c.randomize, c.loop, a, m, f1, f2, f3, f4, f5, sizes_of_make f5 f6, ?_⟩
  intro ho
  refine ⟨_, mat_contents hpil (by omega) (by omega) ho, ?_⟩
  intro hnd hne hrnd hdv fuel hfuel
  exact any_history (w := Formats.matWorld E.mat ⟨false, 256, 256⟩ KeyTerm.split2 E.perm) (le_refl 2) hrnd hnd
    (mat_reads hpil (H := 256) (W := 256) (by omega) (by omega) ho KeyTerm.split2 E.perm) hne f5 hdv hfuel (f7 fuel)

/-- **C156**, synthetic images from NumPy files: likewise. -/
theorem C156_npy (E : Env) (arg : Make.Arg) (d : Make.Dict) (hd : Make.Spec.ConfigOf (world E) arg d) (s : Make.Smp)
    (h : Make.make (world E) arg = .ok s) (hp : Plain d .npy false) :
    ∃ files rnd lp a m, FilesOf E .npy d files ∧ Make.Spec.ValueOr d "randomize" (.bool false) (.bool rnd) ∧
      Make.Spec.ValueOr d "loop" (.bool true) (.bool lp) ∧ Configured E d a ∧ Synthetic.make E.fl E.fl32 a = .ok m ∧ Sizes a m.cfg ∧
      ∀ X Z C content, NpContents E.np X Z C files content → 2 ≤ C → files.Nodup → (lp = true → SynthAny.fieldsOf content files ≠ []) →
        (rnd = true → ∀ k n, (E.perm k n).Perm (List.range n)) → a.ndevices ∣ m.cfg.ffpb → ∀ fuel, 2 * files.length < fuel →
        AnyHistory E s fuel files rnd lp a m X Z content := by
  obtain ⟨files, c, a, m, f1, f2, f3, f4, f5, f6, f7, f8⟩ := any_built hd h hp
  refine ⟨files, c.randomize, c.loop, a, m, f1, f2, f3, f4, f5, sizes_of_make f5 f6, ?_⟩
  intro X Z C content hc hC hnd hne hrnd hdv fuel hfuel
  exact any_history (w := Formats.npWorld E.np false KeyTerm.split2 E.perm) hC hrnd hnd (np_reads hc KeyTerm.split2 E.perm) hne f5 hdv hfuel (f7 fuel)

/-! ## Cases -/

/-- What a call shows: the names of the samples, or how it ended. -/
def callShows (o : Sampler.Out (Sampler.OutBatch (Adapter.Field2 ℚ) Synthetic.Pair)) : List String :=
  match o with
  | .batch x => x.files.getD []
  | .raised .stopIteration => ["StopIteration"]
  | .raised .attributeError => ["AttributeError"]
  | .raised _ => ["other"]
  | .done => []

/-- Likewise for images from files. -/
def realShows (o : Sampler.Out (Sampler.RealBatch ℚ)) : List String :=
  match o with
  | .batch x => x.files.getD []
  | .raised .stopIteration => ["StopIteration"]
  | .raised .attributeError => ["AttributeError"]
  | .raised _ => ["other"]
  | .done => []

/-- HDF5 files with two, no and one flow field, two at a time, two batches from each, looping. The reset without the scheduler goes on with the pass
(and drops what was left to make from the last two samples), the other starts again. -/
example : (match Make.make (world demoEnv) (.dict demoDict) with
    | .ok s => ((synthRun demoEnv 7 [.next, .reset false, .next, .nextEpisode, .next, .next, .reset true, .next] s).getD []).map callShows
    | .error _ => []) =
    [["a.h5", "a.h5"], [], ["b.h5", "a.h5"], ["AttributeError"], ["b.h5", "a.h5"], ["a.h5", "b.h5"], [], ["a.h5", "a.h5"]] := by decide +kernel

/-- Two NumPy files, not looping: after the end the last samples are shown again, and a reset starts a new pass. -/
example : (match Make.make (world demoFiles) (.dict demoNpyDict) with
    | .ok s => ((synthRun demoFiles 6 [.next, .next, .next, .next, .reset false, .next, .reset true, .next] s).getD []).map callShows
    | .error _ => []) =
    [["flow_1.npy", "flow_2.npy"], ["flow_1.npy", "flow_2.npy"], ["StopIteration"], ["flow_1.npy", "flow_2.npy"], [], ["StopIteration"], [],
      ["flow_1.npy", "flow_2.npy"]] := by decide +kernel

/-- Images from two MAT files, three at a time, not looping. -/
example : (match Make.make (world demoEnv) (.dict demoReal) with
    | .ok s => ((realCalls demoEnv 9 [.next, .reset false, .next, .reset true, .nextEpisode, .next] s).getD []).map realShows
    | .error _ => []) = [["b.mat", "a.mat", ""], [], ["StopIteration"], [], ["AttributeError"], ["b.mat", "a.mat", ""]] := by decide +kernel

end Verif.Whole
