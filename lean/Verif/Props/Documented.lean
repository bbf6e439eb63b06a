import Verif.Props.Complete
import Verif.Props.Make
import Verif.Model.Documented
/-!
# Property C114: the configurations that come with the package
-/

namespace Verif.Documented
open Verif Verif.Whole Verif.Whole.Spec

/-- The numbers of `config/main.yaml`, on `n` devices, for flow fields on a grid `g`. -/
def mainArgs (n : Nat) (g : Nat × Nat) : Synthetic.Args :=
  { spec :=
      { batchSize := 1, imageShape := (1024, 1024), imgOffset := (0, 0), densityRange := (num 3 2, num 4 2),
        pHide1 := num 1 4, pHide2 := num 1 4, diameterRanges := [(num 15 1, num 25 1)],
        diameterVar := num 3 2, intensityRanges := [(150, 230)], intensityVar := num 1 2,
        rhoRanges := [(num (-1) 1, num 1 1)], rhoVar := num 1 1, dt := 1,
        noiseUniform := num 1 3, noiseMean := num 1 2, noiseStd := num 1 3 }
    imgOffset := (0, 0), ndevices := n, isEpisodic := false, bpfb := 1, ffpb := 1,
    seed := 0, flowFieldSize := (1024, 1024), flowShape := g, channels := 2,
    resolution := 1, velocitiesPerPixel := num 10 1,
    maxSpeedX := 0, maxSpeedY := 0, minSpeedX := 0,
    minSpeedY := 0, pixels := some true, mask := none, histogram := none }

/-- The numbers of `config/cylinder.yaml`, on `n` devices, for flow fields on a grid `g`. -/
def cylinderArgs (n : Nat) (g : Nat × Nat) : Synthetic.Args :=
  { spec :=
      { batchSize := 1, imageShape := (256, 256), imgOffset := (0, 0), densityRange := (num 3 2, num 4 2),
        pHide1 := num 1 4, pHide2 := num 1 4, diameterRanges := [(num 15 1, num 25 1)],
        diameterVar := num 3 2, intensityRanges := [(150, 230)], intensityVar := num 1 2,
        rhoRanges := [(num (-1) 1, num 1 1)], rhoVar := num 1 1, dt := 1,
        noiseUniform := num 1 3, noiseMean := num 1 3, noiseStd := num 1 6 }
    imgOffset := (0, 0), ndevices := n, isEpisodic := false, bpfb := 1, ffpb := 1,
    seed := 0, flowFieldSize := (256, 256), flowShape := g, channels := 2,
    resolution := 1, velocitiesPerPixel := num 10 1,
    maxSpeedX := 0, maxSpeedY := 0, minSpeedX := 0,
    minSpeedY := 0, pixels := some true, mask := none, histogram := none }

/-- The numbers of `config/Jassal.yaml`, on `n` devices, for flow fields on a grid `g`. -/
def jassalArgs (n : Nat) (g : Nat × Nat) : Synthetic.Args :=
  { spec :=
      { batchSize := 1, imageShape := (256, 256), imgOffset := (0, 0), densityRange := (num 3 2, num 4 2),
        pHide1 := num 1 4, pHide2 := num 1 4, diameterRanges := [(num 15 1, num 25 1)],
        diameterVar := num 3 2, intensityRanges := [(150, 230)], intensityVar := num 1 2,
        rhoRanges := [(num (-1) 1, num 1 1)], rhoVar := num 1 1, dt := 1,
        noiseUniform := num 1 3, noiseMean := num 0 1, noiseStd := num 0 1 }
    imgOffset := (0, 0), ndevices := n, isEpisodic := false, bpfb := 100, ffpb := 1,
    seed := 0, flowFieldSize := (256, 256), flowShape := g, channels := 2,
    resolution := 1, velocitiesPerPixel := num 10 1,
    maxSpeedX := 0, maxSpeedY := 0, minSpeedX := 0,
    minSpeedY := 0, pixels := some true, mask := none, histogram := none }

/-- The numbers of `config/JHTDB.yaml`, on `n` devices, for flow fields on a grid `g`. -/
def jhtdbArgs (n : Nat) (g : Nat × Nat) : Synthetic.Args :=
  { spec :=
      { batchSize := 128, imageShape := (1216, 1936), imgOffset := (0, 0), densityRange := (num 1 3, num 1 2),
        pHide1 := num 1 2, pHide2 := num 1 2, diameterRanges := [(num 1 1, 1)],
        diameterVar := num 1 1, intensityRanges := [(10, 255)], intensityVar := num 1 1,
        rhoRanges := [(num (-2) 1, num 2 1)], rhoVar := num 1 1, dt := num 26 3,
        noiseUniform := num 0 1, noiseMean := num 0 1, noiseStd := num 0 1 }
    imgOffset := (num 25 3, num 5 2), ndevices := n, isEpisodic := false, bpfb := 500, ffpb := 64,
    seed := 0, flowFieldSize := (num 942477796 8, num 1256637061 8), flowShape := g, channels := 2,
    resolution := 200, velocitiesPerPixel := num 10 1,
    maxSpeedX := num 13489508628845215 16, maxSpeedY := num 501191258430481 15, minSpeedX := num (-10241036862134933) 17,
    minSpeedY := num (-45968499779701233) 17, pixels := some false, mask := none, histogram := none }


theorem main_configured (E : Env) (n : Nat) (g : Nat × Nat) (hn : n = 1 ∧ 0 < E.devices) : Configured E mainYaml (mainArgs n g) where
  batchSize := ⟨_, rfl, rfl⟩
  imageShape := ⟨_, rfl, _, _, .inl rfl, rfl, rfl⟩
  imgOffset := ⟨_, rfl, _, _, .inl rfl, rfl, rfl⟩
  density := ⟨_, rfl, _, _, .inl rfl, rfl, rfl⟩
  pHide1 := ⟨_, rfl, rfl⟩
  pHide2 := ⟨_, rfl, rfl⟩
  diameterRanges := ⟨_, rfl, _, .inl rfl, .cons ⟨_, _, .inl rfl, rfl, rfl⟩ .nil⟩
  diameterVar := ⟨_, rfl, rfl⟩
  intensityRanges := ⟨_, rfl, _, .inl rfl, .cons ⟨_, _, .inl rfl, rfl, rfl⟩ .nil⟩
  intensityVar := ⟨_, rfl, rfl⟩
  rhoRanges := ⟨_, rfl, _, .inl rfl, .cons ⟨_, _, .inl rfl, rfl, rfl⟩ .nil⟩
  rhoVar := ⟨_, rfl, rfl⟩
  dt := ⟨_, rfl, rfl⟩
  noiseUniform := ⟨_, rfl, rfl⟩
  noiseMean := ⟨_, rfl, rfl⟩
  noiseStd := ⟨_, rfl, rfl⟩
  bpfb := ⟨_, rfl, rfl⟩
  ffpb := ⟨_, rfl, rfl⟩
  seed := ⟨_, rfl, rfl⟩
  flowFieldSize := ⟨_, rfl, _, _, _, .inl rfl, rfl, rfl⟩
  resolution := ⟨_, rfl, rfl⟩
  velocitiesPerPixel := ⟨_, rfl, rfl⟩
  maxSpeedX := ⟨_, rfl, rfl⟩
  maxSpeedY := ⟨_, rfl, rfl⟩
  minSpeedX := ⟨_, rfl, rfl⟩
  minSpeedY := ⟨_, rfl, rfl⟩
  units := .inl ⟨rfl, rfl⟩
  devices := ⟨_, .inr rfl, .inr ⟨_, [0], .inl rfl, .cons rfl .nil, by
    obtain ⟨rfl, h⟩ := hn
    simp [mainArgs, h]⟩⟩
  mask := ⟨_, .inl ⟨rfl, rfl⟩, .inl ⟨rfl, rfl⟩⟩
  histogram := ⟨_, .inl ⟨rfl, rfl⟩, .inl ⟨rfl, rfl⟩⟩

theorem cylinder_configured (E : Env) (n : Nat) (g : Nat × Nat) (hn : n = E.devices) : Configured E cylinderYaml (cylinderArgs n g) where
  batchSize := ⟨_, rfl, rfl⟩
  imageShape := ⟨_, rfl, _, _, .inl rfl, rfl, rfl⟩
  imgOffset := ⟨_, rfl, _, _, .inl rfl, rfl, rfl⟩
  density := ⟨_, rfl, _, _, .inl rfl, rfl, rfl⟩
  pHide1 := ⟨_, rfl, rfl⟩
  pHide2 := ⟨_, rfl, rfl⟩
  diameterRanges := ⟨_, rfl, _, .inl rfl, .cons ⟨_, _, .inl rfl, rfl, rfl⟩ .nil⟩
  diameterVar := ⟨_, rfl, rfl⟩
  intensityRanges := ⟨_, rfl, _, .inl rfl, .cons ⟨_, _, .inl rfl, rfl, rfl⟩ .nil⟩
  intensityVar := ⟨_, rfl, rfl⟩
  rhoRanges := ⟨_, rfl, _, .inl rfl, .cons ⟨_, _, .inl rfl, rfl, rfl⟩ .nil⟩
  rhoVar := ⟨_, rfl, rfl⟩
  dt := ⟨_, rfl, rfl⟩
  noiseUniform := ⟨_, rfl, rfl⟩
  noiseMean := ⟨_, rfl, rfl⟩
  noiseStd := ⟨_, rfl, rfl⟩
  bpfb := ⟨_, rfl, rfl⟩
  ffpb := ⟨_, rfl, rfl⟩
  seed := ⟨_, rfl, rfl⟩
  flowFieldSize := ⟨_, rfl, _, _, _, .inl rfl, rfl, rfl⟩
  resolution := ⟨_, rfl, rfl⟩
  velocitiesPerPixel := ⟨_, rfl, rfl⟩
  maxSpeedX := ⟨_, rfl, rfl⟩
  maxSpeedY := ⟨_, rfl, rfl⟩
  minSpeedX := ⟨_, rfl, rfl⟩
  minSpeedY := ⟨_, rfl, rfl⟩
  units := .inl ⟨rfl, rfl⟩
  devices := ⟨_, .inl ⟨rfl, rfl⟩, .inl ⟨rfl, hn⟩⟩
  mask := ⟨_, .inl ⟨rfl, rfl⟩, .inl ⟨rfl, rfl⟩⟩
  histogram := ⟨_, .inl ⟨rfl, rfl⟩, .inl ⟨rfl, rfl⟩⟩

theorem jassal_configured (E : Env) (n : Nat) (g : Nat × Nat) (hn : n = E.devices) : Configured E jassalYaml (jassalArgs n g) where
  batchSize := ⟨_, rfl, rfl⟩
  imageShape := ⟨_, rfl, _, _, .inl rfl, rfl, rfl⟩
  imgOffset := ⟨_, rfl, _, _, .inl rfl, rfl, rfl⟩
  density := ⟨_, rfl, _, _, .inl rfl, rfl, rfl⟩
  pHide1 := ⟨_, rfl, rfl⟩
  pHide2 := ⟨_, rfl, rfl⟩
  diameterRanges := ⟨_, rfl, _, .inl rfl, .cons ⟨_, _, .inl rfl, rfl, rfl⟩ .nil⟩
  diameterVar := ⟨_, rfl, rfl⟩
  intensityRanges := ⟨_, rfl, _, .inl rfl, .cons ⟨_, _, .inl rfl, rfl, rfl⟩ .nil⟩
  intensityVar := ⟨_, rfl, rfl⟩
  rhoRanges := ⟨_, rfl, _, .inl rfl, .cons ⟨_, _, .inl rfl, rfl, rfl⟩ .nil⟩
  rhoVar := ⟨_, rfl, rfl⟩
  dt := ⟨_, rfl, rfl⟩
  noiseUniform := ⟨_, rfl, rfl⟩
  noiseMean := ⟨_, rfl, rfl⟩
  noiseStd := ⟨_, rfl, rfl⟩
  bpfb := ⟨_, rfl, rfl⟩
  ffpb := ⟨_, rfl, rfl⟩
  seed := ⟨_, rfl, rfl⟩
  flowFieldSize := ⟨_, rfl, _, _, _, .inl rfl, rfl, rfl⟩
  resolution := ⟨_, rfl, rfl⟩
  velocitiesPerPixel := ⟨_, rfl, rfl⟩
  maxSpeedX := ⟨_, rfl, rfl⟩
  maxSpeedY := ⟨_, rfl, rfl⟩
  minSpeedX := ⟨_, rfl, rfl⟩
  minSpeedY := ⟨_, rfl, rfl⟩
  units := .inl ⟨rfl, rfl⟩
  devices := ⟨_, .inl ⟨rfl, rfl⟩, .inl ⟨rfl, hn⟩⟩
  mask := ⟨_, .inl ⟨rfl, rfl⟩, .inl ⟨rfl, rfl⟩⟩
  histogram := ⟨_, .inl ⟨rfl, rfl⟩, .inl ⟨rfl, rfl⟩⟩

theorem jhtdb_configured (E : Env) (n : Nat) (g : Nat × Nat) (hn : n = E.devices) : Configured E jhtdbYaml (jhtdbArgs n g) where
  batchSize := ⟨_, rfl, rfl⟩
  imageShape := ⟨_, rfl, _, _, .inl rfl, rfl, rfl⟩
  imgOffset := ⟨_, rfl, _, _, .inl rfl, rfl, rfl⟩
  density := ⟨_, rfl, _, _, .inl rfl, rfl, rfl⟩
  pHide1 := ⟨_, rfl, rfl⟩
  pHide2 := ⟨_, rfl, rfl⟩
  diameterRanges := ⟨_, rfl, _, .inl rfl, .cons ⟨_, _, .inl rfl, rfl, rfl⟩ .nil⟩
  diameterVar := ⟨_, rfl, rfl⟩
  intensityRanges := ⟨_, rfl, _, .inl rfl, .cons ⟨_, _, .inl rfl, rfl, rfl⟩ .nil⟩
  intensityVar := ⟨_, rfl, rfl⟩
  rhoRanges := ⟨_, rfl, _, .inl rfl, .cons ⟨_, _, .inl rfl, rfl, rfl⟩ .nil⟩
  rhoVar := ⟨_, rfl, rfl⟩
  dt := ⟨_, rfl, rfl⟩
  noiseUniform := ⟨_, rfl, rfl⟩
  noiseMean := ⟨_, rfl, rfl⟩
  noiseStd := ⟨_, rfl, rfl⟩
  bpfb := ⟨_, rfl, rfl⟩
  ffpb := ⟨_, rfl, rfl⟩
  seed := ⟨_, rfl, rfl⟩
  flowFieldSize := ⟨_, rfl, _, _, _, .inl rfl, rfl, rfl⟩
  resolution := ⟨_, rfl, rfl⟩
  velocitiesPerPixel := ⟨_, rfl, rfl⟩
  maxSpeedX := ⟨_, rfl, rfl⟩
  maxSpeedY := ⟨_, rfl, rfl⟩
  minSpeedX := ⟨_, rfl, rfl⟩
  minSpeedY := ⟨_, rfl, rfl⟩
  units := .inr ⟨rfl, rfl⟩
  devices := ⟨_, .inl ⟨rfl, rfl⟩, .inl ⟨rfl, hn⟩⟩
  mask := ⟨_, .inl ⟨rfl, rfl⟩, .inl ⟨rfl, rfl⟩⟩
  histogram := ⟨_, .inl ⟨rfl, rfl⟩, .inl ⟨rfl, rfl⟩⟩

/-! ## Accepted -/

theorem build_grid {fl fl32 fl32' : ℚ → ℚ} {a : Geometry.Args} {g0 : Geometry.Geo} (h : Geometry.build fl fl32 a = .ok g0)
    {s : Nat × Nat} (hs : 0 < s.1 ∧ 0 < s.2) : ∃ g, Geometry.build fl fl32' { a with flowShape := s } = .ok g := by
  unfold Geometry.build at h ⊢
  split at h
  · cases h
  split at h
  · cases h
  split at h
  · cases h
  split at h
  · cases h
  split at h
  · cases h
  dsimp only at h
  split at h
  · cases h
  split at h
  · cases h
  rename_i k1 k2 k3 k4 k5 k6 k7
  exact ⟨_, (if_neg k1).trans ((if_neg (not_not.mpr hs)).trans ((if_neg k3).trans ((if_neg k4).trans ((if_neg k5).trans
    ((if_neg k6).trans (if_neg k7))))))⟩

theorem build_change {fl fl32 fl32' : ℚ → ℚ} {a : Synthetic.Args} {g0 : Geometry.Geo} (h : Geometry.build fl fl32 a.geometry = .ok g0) (n : Nat)
    {s : Nat × Nat} (hs : 0 < s.1 ∧ 0 < s.2) : ∃ g, Geometry.build fl fl32' { a with ndevices := n, flowShape := s }.geometry = .ok g :=
  build_grid h hs

/-- Whether arguments are acceptable does not depend on the number of devices and the grid of the flow fields. -/
theorem fine_change {fl fl32 : ℚ → ℚ} {a : Synthetic.Args} (h : (Synthetic.make fl fl32 a).isOk = true) {n : Nat} (hn : 0 < n)
    {s : Nat × Nat} (hs : 0 < s.1 ∧ 0 < s.2) (fl32' : ℚ → ℚ) :
    Fine { a with ndevices := n, flowShape := s } ∧ ∃ g, Geometry.build fl fl32' { a with ndevices := n, flowShape := s }.geometry = .ok g := by
  cases hm : Synthetic.make fl fl32 a with
  | error e => rw [hm] at h; cases h
  | ok m =>
    have hf := fine_of_make hm
    obtain ⟨_, _, _, _, _, _, _, k8, _⟩ := Synthetic.make_ok hm
    exact ⟨⟨hf.ranges, hf.mask, hf.histogram, hn, hf.bpfb, hf.ffpb, hf.seed, hf.velocitiesPerPixel, hf.flowFieldSize, hs, hf.resolution, hf.channels⟩,
      build_change k8 n hs⟩

/-- A machine as the package expects it: floats as in Python, a device, a random generator with permutations. -/
structure Machine (E : Env) : Prop where
  floats : E.fl = binary64
  devices : 0 < E.devices
  permutations : ∀ k n, (E.perm k n).Perm (List.range n)
  key : ∃ k, E.prngKey (.int 0) = .ok k

theorem plain_mat {d : Make.Dict} {kind : Make.Kind} (h1 : d.lookup "scheduler_class" = some (.str (Make.Spec.ext kind)))
    (h2 : d.lookup "include_images" = none) (h3 : d.lookup "episode_length" = none) (h4 : d.lookup "buffer_size" = none) : Plain d kind false :=
  ⟨h1, .inl ⟨h2, rfl⟩, ⟨le_refl _, .inl ⟨h3, rfl⟩⟩, ⟨le_refl _, .inl ⟨h4, rfl⟩⟩⟩

theorem proper_none {E : Env} {d : Make.Dict} (h : Has d "flow_field_size" (fun v => ∃ l, Items l v ∧ ∀ x ∈ l, Types.Spec.Positive x))
    (hd : d.lookup "device_ids" = none) : Proper E d where
  size := h
  devices := by
    intro v vs zs hv hi
    rcases hv with ⟨_, rfl⟩ | hv
    · rcases hi with hi | hi <;> cases hi
    · rw [hd] at hv; cases hv

theorem positive_of {v : Val} {q : ℚ} (h : IsNum q v) (hq : 0 < q) : Types.Spec.Positive v := ⟨_, isNumber_of h, lt_of hq⟩

theorem positive_two {a b : Val} {p q : ℚ} (ha : IsNum p a) (hp : 0 < p) (hb : IsNum q b) (hq : 0 < q) : ∀ x ∈ [a, b], Types.Spec.Positive x := by
  intro x hx
  simp only [List.mem_cons, List.not_mem_nil, or_false] at hx
  rcases hx with rfl | rfl
  · exact positive_of ha hp
  · exact positive_of hb hq

/-- **C114** (partial), accepted: the configurations for MAT files in `config/`, given as a file or a dictionary, are accepted on every machine on
which their directory contains MAT files, and only such files are listed. -/
theorem C114_shipped_mat_partial (E : Env) (hE : Machine E) (d : Make.Dict) (hd : d ∈ [mainYaml, cylinderYaml, jassalYaml]) (files : List String)
    (hf : FilesOf E .mat d files) (hx : ∀ p ∈ files, p.endsWith ".mat" = true) (arg : Make.Arg) (ha : Make.Spec.ConfigOf (world E) arg d) :
    ∃ s, Make.make (world E) arg = .ok s := by
  obtain ⟨k, hk⟩ := hE.key
  have hg : (0 : Nat) < (256, 256).1 ∧ (0 : Nat) < (256, 256).2 := by decide
  rw [make_config ha]
  simp only [List.mem_cons, List.not_mem_nil, or_false] at hd
  rcases hd with rfl | rfl | rfl
  · obtain ⟨f1, g, f2⟩ := fine_change (fl := binary64) (fl32 := id) (a := mainArgs 1 (1, 1)) (by decide +kernel) (n := 1) one_pos hg E.fl32
    rw [accepted_iff E _ .mat (plain_mat rfl rfl rfl rfl) hE.permutations]
    refine ⟨files, false, true, mainArgs 1 (256, 256), g, ⟨hf, hx, .inr rfl, .inr rfl, ⟨_, k, ⟨_, rfl, rfl⟩, hk⟩,
      main_configured E _ _ ⟨rfl, hE.devices⟩, ⟨⟨_, rfl, _, .inl rfl, ?_⟩, ?_⟩, ⟨rfl, rfl⟩, f1, rfl, rfl⟩, by rw [hE.floats]; exact f2⟩
    · exact positive_two (p := 1024) (q := 1024) rfl (by norm_num) rfl (by norm_num)
    · intro v vs zs hv hi hz
      rcases hv with ⟨hv, _⟩ | hv
      · cases hv
      · cases hv
        rcases hi with hi | hi
        · cases hi
          cases hz with
          | cons h1 h2 =>
            cases h2
            cases h1
            simp
        · cases hi
  · obtain ⟨f1, g, f2⟩ := fine_change (fl := binary64) (fl32 := id) (a := cylinderArgs 1 (1, 1)) (by decide +kernel) hE.devices hg E.fl32
    rw [accepted_iff E _ .mat (plain_mat rfl rfl rfl rfl) hE.permutations]
    exact ⟨files, false, true, cylinderArgs E.devices (256, 256), g, ⟨hf, hx, .inl ⟨rfl, rfl⟩, .inl ⟨rfl, rfl⟩, ⟨_, k, ⟨_, rfl, rfl⟩, hk⟩,
      cylinder_configured E _ _ rfl, proper_none ⟨_, rfl, _, .inl rfl, positive_two (p := 256) (q := 256) rfl (by norm_num) rfl (by norm_num)⟩ rfl,
      ⟨rfl, rfl⟩, f1, rfl, rfl⟩, by rw [hE.floats]; exact f2⟩
  · obtain ⟨f1, g, f2⟩ := fine_change (fl := binary64) (fl32 := id) (a := jassalArgs 1 (1, 1)) (by decide +kernel) hE.devices hg E.fl32
    rw [accepted_iff E _ .mat (plain_mat rfl rfl rfl rfl) hE.permutations]
    exact ⟨files, false, true, jassalArgs E.devices (256, 256), g, ⟨hf, hx, .inl ⟨rfl, rfl⟩, .inl ⟨rfl, rfl⟩, ⟨_, k, ⟨_, rfl, rfl⟩, hk⟩,
      jassal_configured E _ _ rfl, proper_none ⟨_, rfl, _, .inl rfl, positive_two (p := 256) (q := 256) rfl (by norm_num) rfl (by norm_num)⟩ rfl,
      ⟨rfl, rfl⟩, f1, rfl, rfl⟩, by rw [hE.floats]; exact f2⟩

/-- The files of `config/JHTDB.yaml` (lines 41-48). -/
def jhtdbFiles : List String := match jhtdbYaml.lookup "file_list" with
  | some (.list l) => l.filterMap (fun v => match v with | .str s => some s | _ => none)
  | _ => []

/-- **C114** (partial), accepted: `config/JHTDB.yaml` is accepted on every machine that has its eight files, none of them a directory, the first
of which holds a volume with at least three axes and something in it. -/
theorem C114_shipped_h5_partial (E : Env) (hE : Machine E) (hf : ∀ p ∈ jhtdbFiles, E.isFile p = true ∧ E.isDir p = false) (name : String) (v : Arr ℚ)
    (rest : List (String × Option (Arr ℚ))) (hv : E.h5 (jhtdbFiles.headD "") = .ok ((name, some v) :: rest)) (X Y Z : Nat) (more : List Nat)
    (hs : v.shape = X :: Y :: Z :: more) (hX : 0 < X) (hZ : 0 < Z) (arg : Make.Arg) (ha : Make.Spec.ConfigOf (world E) arg jhtdbYaml) :
    ∃ s, Make.make (world E) arg = .ok s := by
  obtain ⟨k, hk⟩ := hE.key
  rw [make_config ha]
  obtain ⟨f1, g, f2⟩ := fine_change (fl := binary64) (fl32 := id) (a := jhtdbArgs 1 (1, 1)) (by decide +kernel) hE.devices (s := (X, Z)) ⟨hX, hZ⟩ E.fl32
  have hfl : FilesOf E .h5 jhtdbYaml jhtdbFiles := by
    refine ⟨jhtdbFiles, rfl, ?_, by decide +kernel, fun p hp => (hf p hp).1⟩
    generalize jhtdbFiles = l at hf
    induction l with
    | nil => exact .nil
    | cons p l ih => exact .file (hf p (by simp)).2 (ih fun q hq => hf q (by simp [hq]))
  rw [accepted_iff E _ .h5 (plain_mat rfl rfl rfl rfl) hE.permutations]
  refine ⟨jhtdbFiles, false, true, jhtdbArgs E.devices (X, Z), g, ⟨hfl, ?_, .inl ⟨rfl, rfl⟩, .inl ⟨rfl, rfl⟩, ⟨_, k, ⟨_, rfl, rfl⟩, hk⟩,
      jhtdb_configured E _ _ rfl, proper_none ⟨_, rfl, _, .inl rfl, ?_⟩ rfl,
      ⟨name, v, rest, hv, by rw [hs]; rfl, by rw [hs]; rfl, rfl⟩, f1, rfl, rfl⟩, by rw [hE.floats]; exact f2⟩
  · intro paths hp
    have : paths = jhtdbFiles := by
      have h2 : jhtdbYaml.lookup "file_list" = some (.list (jhtdbFiles.map .str)) := rfl
      rw [h2] at hp
      simp only [Option.some.injEq, Val.list.injEq] at hp
      exact (List.map_injective_iff.mpr (fun a b h => by cases h; rfl) hp).symm
    rw [this]
    have : jhtdbFiles.all (fun p => p.endsWith ".h5") = true := by decide +kernel
    exact List.all_eq_true.mp this
  · exact positive_two (p := num 942477796 8) (q := num 1256637061 8) rfl (by decide +kernel) rfl (by decide +kernel)

/-! ## Rejected -/

/-- **C114 is false**: the configurations for real images of the tutorial and of `docs/examples` are rejected, whatever the files and the machine:
`flow_fields_per_batch`, which the tutorial calls not applicable, is missing. -/
theorem C114_examples_refuted (w : Make.World) (d : Make.Dict) (hd : d ∈ [exampleMatYaml, exampleNpyYaml, tutorialMatYaml]) :
    Make.make w (.dict d) = .error .valueError := by
  simp only [List.mem_cons, List.not_mem_nil, or_false] at hd
  rcases hd with rfl | rfl | rfl <;> rfl

/-- **C114 is false**: `config/test_data.yaml` names no scheduler class. -/
theorem C114_test_data_refuted (w : Make.World) : Make.make w (.dict testDataYaml) = .error .valueError := rfl

/-- A directory as `file_list` that is not in a list is never accepted. -/
theorem file_list_string (E : Env) (d : Make.Dict) {kind : Make.Kind} {images : Bool} (hp : Plain d kind images) (p : String)
    (hl : d.lookup "file_list" = some (.str p)) (s : Make.Smp) : Make.make (world E) (.dict d) ≠ .ok s := by
  intro h
  obtain ⟨b, root, shape, q, _, _, _, _, hb, _⟩ := make_steps (arg := .dict d) rfl h hp
  have e : Make.getD d "file_list" (.list []) = .str p := by unfold Make.getD; rw [hl]; rfl
  rw [e] at hb
  unfold buildBase at hb
  cases kind with
  | h5 =>
    simp only [Make.baseFromConfig] at hb
    split at hb
    · rename_i q' hq'
      obtain ⟨_, _, l, h3, _⟩ := ((FormatInit.C86_hdf5_constructor_partial _ _ _ _).1 q'.1 q'.2.1 q'.2.2).mp hq'
      cases h3
    · cases hb
  | mat =>
    simp only [Make.baseFromConfig] at hb
    split at hb
    · rename_i q' hq'
      obtain ⟨_, _, _, _, l, h3, _⟩ := ((FormatInit.C86_mat_constructor _ _ _ _ _ _).1 q'.1 q'.2.1 q'.2.2).mp hq'
      cases h3
    · cases hb
  | npy =>
    simp only [Make.baseFromConfig] at hb
    split at hb
    · rename_i q' hq'
      obtain ⟨_, _, l, h3, _⟩ := ((FormatInit.C86_numpy_constructor _ _ _ _ _).1 q'.1 q'.2.1 q'.2.2).mp hq'
      cases h3
    · cases hb

/-- **C114 is false**: the full configuration of the tutorial is never accepted, and would not be with another `file_list` (`file_list` is a
string, and `noise_level` stands where `noise_uniform`, `noise_gaussian_mean` and `noise_gaussian_std` are needed). -/
theorem C114_tutorial_refuted (E : Env) (s : Make.Smp) : Make.make (world E) (.dict tutorialYaml) ≠ .ok s ∧
    ∀ fileList, Make.make (world E) (.dict (("file_list", fileList) :: tutorialYaml)) ≠ .ok s := by
  refine ⟨file_list_string E _ (plain_mat (kind := .mat) rfl rfl rfl rfl) _ rfl s, ?_⟩
  intro fileList h
  obtain ⟨b, root, shape, q, _, _, _, _, hb, hfin⟩ := make_steps (arg := .dict (("file_list", fileList) :: tutorialYaml)) rfl h (plain_mat (kind := .mat) rfl rfl rfl rfl)
  unfold Make.finish at hfin
  rw [if_neg (by decide)] at hfin
  split at hfin
  · cases hfin
  rw [if_neg (by decide)] at hfin
  simp only [Make.andThen_ok] at hfin
  obtain ⟨_, _, hfin⟩ := hfin
  obtain ⟨sa, a, m, _, _, _, h3, _⟩ := synth_configured hfin
  obtain ⟨v, hv, _⟩ := h3.noiseUniform
  have : List.lookup "noise_uniform" (("file_list", fileList) :: tutorialYaml) = none := rfl
  rw [this] at hv
  cases hv

/-- **C114 is false**: real images from `.npy` files, for which `docs/examples/npy/config.yaml` is there, are never available through `make`. -/
theorem C114_npy_refuted (w : Make.World) (d : Make.Dict) (h1 : d.lookup "scheduler_class" = some (.str ".npy"))
    (h2 : d.lookup "include_images" = some (.bool true)) (s : Make.Smp) : Make.make w (.dict d) ≠ .ok s := by
  intro h
  obtain ⟨d', kind, b, buf, len, inc, h3, h4, _⟩ := Make.C42_builds_what_is_configured w (.dict d) s h
  cases h3
  have hk : kind = .npy := by
    have := h4.schedulerClass
    rw [h1] at this
    cases kind <;> first | rfl | exact absurd this (by simp [Make.Spec.ext])
  have hi : inc = true := by
    rcases h4.includeImages with ⟨h5, _⟩ | h5
    · rw [h2] at h5; cases h5
    · rw [h2] at h5; cases h5; rfl
  exact absurd (h4.onlyMat hi) (by rw [hk]; simp)

/-! ## A case -/

/-- A machine on which the directory of `config/main.yaml` has two files. -/
def demoMachine : Env :=
  { demoEnv with
    isDir := fun p => p == "/shared/fluids/fluids-estimation/eye_candies_main"
    glob := fun _ _ => ["/shared/fluids/fluids-estimation/eye_candies_main/a.mat", "/shared/fluids/fluids-estimation/eye_candies_main/b.mat"]
    fl := binary64, fl32 := binary32 }

example : ∃ s, Make.make (world demoMachine) (.dict mainYaml) = .ok s := by
  refine C114_shipped_mat_partial demoMachine ⟨rfl, by decide, fun _ _ => List.Perm.refl _, ⟨_, rfl⟩⟩ mainYaml (by simp)
    ["/shared/fluids/fluids-estimation/eye_candies_main/a.mat", "/shared/fluids/fluids-estimation/eye_candies_main/b.mat"]
    ⟨["/shared/fluids/fluids-estimation/eye_candies_main"], rfl, ?_, by simp, ?_⟩ ?_ (.dict mainYaml) rfl
  · exact .dir _ (by decide +kernel) (List.Perm.refl _) (by decide +kernel) .nil
  · intro p hp; simp only [List.mem_cons, List.not_mem_nil, or_false] at hp; rcases hp with rfl | rfl <;> decide +kernel
  · intro p hp; simp only [List.mem_cons, List.not_mem_nil, or_false] at hp; rcases hp with rfl | rfl <;> decide +kernel

end Verif.Documented
