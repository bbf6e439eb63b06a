import Verif.Props.Resets
import Verif.Props.Devices
import Verif.Props.Place
import Verif.Props.SanityCrash
import Verif.Props.Documented
import Verif.Props.SynthRange
import Verif.Props.BufferedEpisodes
import Verif.Props.LeafDirs
import Verif.Props.Synthetic
/-!
# Cases

Concrete cases that meet all hypotheses of theorems stated in other files, at once.
-/

namespace Verif.Cases
open Verif

/-- C143: a scheduler that cannot be reset. After the exception, the sampler starts its draws again and goes on with the next flow batch. -/
example : ∃ cfg, Sampler.Cfg.make 3 1 false 2 2 0 = .ok cfg ∧
    (Sampler.run { Sampler.demoSched with reset := fun _ => .error .runtimeError } Sampler.demoGen cfg [.next, .reset true, .next] (Sampler.init cfg 0)).map
      (fun q => q.1.map (fun o => match o with | .batch x => some x.flows | .raised _ => some [] | _ => none)) =
    some [some [0, 1, 0], some [], some [10, 11, 10]] := ⟨_, rfl, by decide⟩

example (ops : List Sampler.Op) (cfg : Sampler.Cfg) :=
  Sampler.C143_reset_fails { Sampler.demoSched with reset := fun _ => .error .runtimeError } Sampler.demoGen cfg (Sampler.init cfg 2) .runtimeError rfl ops

/-- C142: four images of four flow fields, on two devices and on one. -/
def fourOf : Synthetic.Args := { Synthetic.demo with spec := { Synthetic.demo.spec with batchSize := 4 }, ffpb := 4 }

/-- A scheduler that always has four flow fields. -/
def always : Sampler.ISched Unit (Sampler.FlowBatch (Adapter.Field2 ℚ)) where
  getBatch n s := some (.ok ⟨List.replicate n Synthetic.demoFlow, none, none⟩, s)
  reset s := .ok s
  episodic := none

example (R R' : Generate.Rand ℚ) (ops : List Sampler.Op) :=
  Devices.C142_synthetic_partial id id R R' fourOf 1 (m := ⟨⟨4, 2, 2, 4, 7⟩, Synthetic.demoMade.geo, (2, 2), true⟩)
    (m' := ⟨⟨4, 1, 2, 4, 7⟩, Synthetic.demoMade.geo, (2, 2), true⟩) (by decide +kernel) (by decide +kernel) rfl (by decide) (by decide) (sch := always)
    (by intro n s b s' h; simp only [always, Option.some.injEq, Prod.mk.injEq, Except.ok.injEq] at h; rw [← h.1]; simp) () ops

/-- C118, not the exact case: two pixels for three rows, in a region that begins between grid points. -/
example := Adapter.C118_place_partial { Adapter.demoPlace with imgOffset := (3 / 2, 3 / 2), maxSpeedX := 1 / 2, maxSpeedY := 1 / 2 }
  ⟨(1, 1), (0, 0), (3, 4), (0, 0), (1, 1)⟩ (by decide +kernel) (by decide +kernel) (2, 3) 1 true ⟨10, 10, fun j i => ((i : ℚ), (j : ℚ))⟩ rfl
  (j := 1) (i := 2) (by decide) (by decide)

/-- C60: every file in any order, more than once. -/
example := LeafDirs.C60_total_and_order_independent LeafDirs.demoOS (fun l => ⟨List.nodup_dedup l, fun _ => List.mem_dedup⟩) false
  ["r/a/0.mat", "r/x.mat", "r/a/1.mat"] ["r/x.mat", "r/a/1.mat", "r/a/0.mat", "r/x.mat"]
  (by intro p _ e; unfold LeafDirs.demoOS; dsimp only; split <;> [skip; split] <;> split <;> simp_all) (by intro p; simp only [List.mem_cons, List.not_mem_nil, or_false]; tauto)

/-- C114: a machine that has the files of `config/JHTDB.yaml`. -/
def jhtdbMachine : Whole.Env :=
  { Whole.demoEnv with isFile := fun p => decide (p ∈ Documented.jhtdbFiles), isDir := fun _ => false, fl := binary64, fl32 := binary32
                       h5 := fun _ => .ok [("velocity", some ⟨[2, 1, 3, 2], [0, 1, 2, 3, 4, 5, 6, 7, 8, 9, 10, 11]⟩)] }

example : ∃ s, Make.make (Whole.world jhtdbMachine) (.dict Documented.jhtdbYaml) = .ok s :=
  Documented.C114_shipped_h5_partial jhtdbMachine ⟨rfl, by decide, fun _ _ => List.Perm.refl _, ⟨_, rfl⟩⟩
    (fun p hp => ⟨decide_eq_true hp, rfl⟩) "velocity" ⟨[2, 1, 3, 2], [0, 1, 2, 3, 4, 5, 6, 7, 8, 9, 10, 11]⟩ [] rfl 2 1 3 [2] rfl
    (by decide) (by decide) (.dict Documented.jhtdbYaml) rfl

/-- C147: text of speeds, for the panel below. -/
def speedText : Val → String
  | .float (.fin q) => if q = 7 then "7.0" else if q = 5 then "5.0" else if q = -3 then "-3.0" else "-1.0"
  | v => Sanity.demoText v

/-- The reading of these texts. -/
def speedParse (s : String) : Val :=
  if s = "7.0" then .float (.fin 7) else if s = "5.0" then .float (.fin 5) else if s = "-3.0" then .float (.fin (-3)) else
    if s = "-1.0" then .float (.fin (-1)) else Sanity.demoParse s

theorem demo_written : (Sanity.panel Sanity.demoRead (fun _ => true) Sanity.demoConfig "1" "y").written =
    some [("min_speed_x", .float (.fin (-3))), ("max_speed_x", .float (.fin 7)), ("min_speed_y", .float (.fin (-1))), ("max_speed_y", .float (.fin 5))] := by
  have h1 : Sanity.filesCheck (fun _ => true) [.str "a.h5", .str "b.h5"] = .ok ["a.h5", "b.h5"] := by
    simp [Sanity.filesCheck, show "a.h5".endsWith ".h5" = true by decide +kernel, show "b.h5".endsWith ".h5" = true by decide +kernel]
  have h2 : Sanity.speeds Sanity.demoRead ["a.h5", "b.h5"] = .ok { minX := .fin (-3), maxX := .fin 7, minY := .fin (-1), maxY := .fin 5 } := by decide +kernel
  have h3 : Sanity.get Sanity.demoConfig "file_list" = some (.list [.str "a.h5", .str "b.h5"]) := rfl
  have h4 : (Sanity.speedKeys.map (fun k => (Sanity.get Sanity.demoConfig k).getD .none)).all (fun v => v.asNum.isSome) = false := rfl
  unfold Sanity.panel
  rw [h3]
  dsimp only
  rw [h1]
  dsimp only
  rw [h4, h2]
  rfl

/-- C74: the file is written. -/
example := Sanity.C74_written _ _ _ _ _ _ demo_written

/-- C147: the script is stopped between the two files, and run again. -/
example (old : List SanityCrash.Line) :=
  SanityCrash.C147_unnoticed speedText speedParse Sanity.demoConfig Sanity.demoRead (fun _ => true) "1" "y" ["a.h5", "b.h5"] rfl
    { minX := .fin (-3), maxX := .fin 7, minY := .fin (-1), maxY := .fin 5 } (by decide +kernel)
    [("min_speed_x", .float (.fin (-3))), ("max_speed_x", .float (.fin 7)), ("min_speed_y", .float (.fin (-1))), ("max_speed_y", .float (.fin 5))]
    demo_written (by
      intro v hv
      simp only [List.map_cons, List.map_nil, List.mem_cons, List.not_mem_nil, or_false, exists_eq_or_imp, exists_eq_left] at hv
      rcases hv with (rfl | rfl) | rfl | rfl | rfl | rfl <;> rfl) old 1 (by decide) (by decide) "" ""

/-- C147: stopped before the first file of the list. -/
example := SanityCrash.C147_noticed Sanity.demoText Sanity.demoParse Sanity.demoConfig [("seed", .int 7)] []
  [.entry "seed" "7", .entry "name" "x"] (.lines 2) (by simp) rfl [("seed", .int 7), ("name", .str "x")] rfl

/-- C147: stopped in a value. -/
example := SanityCrash.C147_nothing_foreign_partial Sanity.demoText Sanity.demoParse Sanity.demoConfig [("seed", .int 7)] []
  [.entry "seed" "7", .entry "name" ""] (.torn 1 (.entry "name" "x") (.entry "name" "") rfl (.value _ _ _ (by simp)))
  [("seed", .int 7), ("name", .str "")] rfl

open Verif.Whole Verif.Whole.Spec

theorem demo_files {files : List String} (h : FilesOf demoEnv .h5 demoDict files) : files = ["a.h5", "x.h5", "b.h5"] := by
  obtain ⟨paths, e1, e2, _⟩ := h
  have hpaths : paths = ["a.h5", "x.h5", "b.h5"] := by
    have : ([Val.str "a.h5", .str "x.h5", .str "b.h5"] : List Val) = paths.map .str := by
      simpa [demoDict, List.lookup] using e1
    match paths, this with
    | [p, q, r], this => simpa using this.symm
  subst hpaths
  cases e2 with
  | dir h1 h2 => exact absurd (by assumption : (demoEnv.fs .h5).isDir _ = true) (by decide)
  | file _ e2 =>
  cases e2 with
  | dir h1 h2 => exact absurd (by assumption : (demoEnv.fs .h5).isDir _ = true) (by decide)
  | file _ e2 =>
  cases e2 with
  | dir h1 h2 => exact absurd (by assumption : (demoEnv.fs .h5).isDir _ = true) (by decide)
  | file _ e2 =>
  cases e2
  rfl

theorem demo_contents : SynthPipeline.Contents demoEnv.h5 12 12 2 ["a.h5", "x.h5", "b.h5"] demoContent := by
  intro p hp
  simp only [List.mem_cons, List.not_mem_nil, or_false] at hp
  rcases hp with rfl | rfl | rfl
  · exact ⟨⟨"flow", [], rfl⟩, ⟨2, rfl⟩, by unfold Arr.WF; decide +kernel⟩
  · intro items h
    cases h
  · exact ⟨⟨"flow", [], rfl⟩, ⟨1, rfl⟩, by unfold Arr.WF; decide +kernel⟩

/-- Whether there is a number from 0 to 1 at an index. -/
def unitAt (vol : Arr ℚ) (ix : List Nat) : Bool := (vol.at? ix).any (fun q => decide (0 ≤ q ∧ q ≤ 1))

theorem unitAt_elim {vol : Arr ℚ} {ix : List Nat} (h : unitAt vol ix = true) : ∃ u, vol.at? ix = some u ∧ 0 ≤ u ∧ u ≤ 1 := by
  unfold unitAt at h
  cases hv : vol.at? ix with
  | none => rw [hv] at h; cases h
  | some u => rw [hv] at h; exact ⟨u, rfl, of_decide_eq_true h⟩

theorem demo_unit : ∀ p ∈ ["a.h5", "x.h5", "b.h5"], ∀ vol, demoContent p = some vol → ∀ j y i, j < 12 → y < vol.shape.getD 1 0 → i < 12 →
    ∃ u v, vol.at? [j, y, i, 0] = some u ∧ vol.at? [j, y, i, 1] = some v ∧ (0 ≤ u ∧ u ≤ 1) ∧ (0 ≤ v ∧ v ≤ 1) := by
  have key : ∀ p ∈ ["a.h5", "x.h5", "b.h5"], ∀ vol ∈ (demoContent p).toList, ∀ j ∈ List.range 12, ∀ y ∈ List.range (vol.shape.getD 1 0), ∀ i ∈ List.range 12,
      (unitAt vol [j, y, i, 0] && unitAt vol [j, y, i, 1]) = true := by decide +kernel
  intro p hp vol hv j y i hj hy hi
  have h := key p hp vol (by rw [hv]; simp) j (List.mem_range.mpr hj) y (List.mem_range.mpr hy) i (List.mem_range.mpr hi)
  rw [Bool.and_eq_true] at h
  obtain ⟨u, h1, h2⟩ := unitAt_elim h.1
  obtain ⟨v, h3, h4⟩ := unitAt_elim h.2
  exact ⟨u, v, h1, h3, h2, h4⟩

/-- C133, HDF5 files: the speeds in the two files are between 0 and 1, so the vectors of all batches are, in the unit that is asked for. -/
example : ∃ s a m, Make.make (world demoEnv) (.dict demoDict) = .ok s ∧ Configured demoEnv demoDict a ∧ Synthetic.make demoEnv.fl demoEnv.fl32 a = .ok m ∧
    ∀ N, ∃ outs, synthRun demoEnv 6 (List.replicate N .next) s = some outs ∧ outs.length = N ∧
      ∀ o ∈ outs, ∃ x, o = .batch x ∧ ReportsWithin m.cfg (0 * factor a, 0 * factor a) (1 * factor a, 1 * factor a) x := by
  obtain ⟨s, hs⟩ := ok_of_isOk (r := Make.make (world demoEnv) (.dict demoDict)) (by decide +kernel)
  obtain ⟨files, rnd, a, m, hf, h2, h3, h4, h5⟩ := C133_h5 demoEnv (.dict demoDict) demoDict rfl s hs
    ⟨rfl, .inl ⟨rfl, rfl⟩, ⟨by decide, .inl ⟨rfl, rfl⟩⟩, ⟨by decide, .inl ⟨rfl, rfl⟩⟩⟩ (.inl ⟨rfl, rfl⟩)
  obtain rfl := demo_files hf
  have hrnd : rnd = false := by
    rcases h2 with ⟨_, h⟩ | h
    · simpa using h
    · cases h
  subst hrnd
  have hdvd : a.ndevices ∣ m.cfg.ffpb := by
    have e1 : a.ffpb = 2 := isInt_same (x := a.ffpb) (y := 2) h3.ffpb ⟨.int 2, rfl, rfl⟩
    have e2 : a.ndevices = 2 := by
      obtain ⟨v, hv, hd⟩ := h3.devices
      rcases hv with ⟨_, rfl⟩ | hv
      · rcases hd with ⟨_, hd⟩ | ⟨vs, zs, hi, _⟩
        · exact hd
        · exact absurd hi (by simp [Items])
      · cases hv
    obtain ⟨_, _, _, g4, _⟩ := Synthetic.make_ok h4
    have g7 := (Sampler.Cfg.make_ok g4).2.2.2.2.2.2
    rw [g7, e2, e1]
    exact ⟨1, rfl⟩
  refine ⟨s, a, m, hs, h3, h4, fun N => ?_⟩
  obtain ⟨outs, g1, g2, g3⟩ := h5 12 12 2 demoContent (0, 0) (1, 1) demo_contents (by decide) (by decide) (by decide) (by decide) (by simp) hdvd
    (by decide +kernel) demo_unit 6 (by decide) N
  exact ⟨outs, g1, g2, fun o ho => let ⟨x, e1, e2, _⟩ := g3 o ho; ⟨x, e1, e2⟩⟩

/-- C121, images of files: what is built for episodes, with a buffer and without. -/
example : ∃ s s', Make.make (world demoEpisodes) (.dict (("buffer_size", .int 2) :: demoRealEpisodes)) = .ok s ∧
    Make.make (world demoEpisodes) (.dict demoRealEpisodes) = .ok s' ∧
    ∃ (dirs : List String) (hh ww : Nat), IsSize demoRealEpisodes hh ww ∧ ∀ content, RealPipeline.Contents demoEpisodes.mat hh ww (dirs.flatMap demoEpisodes.matFiles) content →
      (∀ p ∈ dirs.flatMap demoEpisodes.matFiles, content p ≠ none) →
      Episodic.ChoiceOK (Key := KeyTerm) ⟨KeyTerm.split2, demoEpisodes.choice⟩ → ∃ draws : Nat → List (List String), (∀ j, Episodes.NoRepeat 2 (draws j)) →
        ∀ modern ops, .reset true ∉ ops → ∀ outs, BufferedRealEpisodes demoEpisodes 4 modern (.next :: ops) s outs →
          realEpisodes demoEpisodes 4 (.next :: ops) s' = some outs := by
  obtain ⟨s', hs'⟩ := ok_of_isOk (r := Make.make (world demoEpisodes) (.dict demoRealEpisodes)) (by decide +kernel)
  obtain ⟨s, files, dirs, k, hh, ww, h1, h2, h3, h4, h5, h6, h7⟩ := C121_real_partial demoEpisodes (("buffer_size", .int 2) :: demoRealEpisodes) demoRealEpisodes
    (sameBut_cons _ _) 2 (by decide) ⟨by decide, .inr ⟨_, rfl, rfl⟩⟩ s' hs' 2
    ⟨rfl, .inr rfl, ⟨by decide, .inr ⟨_, rfl, rfl⟩⟩, by decide, ⟨by decide, .inl ⟨rfl, rfl⟩⟩⟩ (.inl ⟨rfl, rfl⟩)
    (fun l => ⟨List.nodup_dedup l, fun _ => List.mem_dedup⟩)
  have hk : k = 2 := by
    have := isInt_same (x := k) (y := 2) h4 ⟨.int 2, rfl, rfl⟩
    omega
  subst hk
  refine ⟨s, s', h1, hs', dirs, hh, ww, h6, fun content c1 c2 c3 => ?_⟩
  obtain ⟨draws, _, h8⟩ := h7 content c1 c2 c3
  exact ⟨draws, fun hn modern ops hr outs ho => ((h8 hn 4 (by decide) modern (.next :: ops)).2 ops rfl hr outs ho).1⟩

end Verif.Cases
