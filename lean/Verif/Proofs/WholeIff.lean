import Verif.Proofs.WholeBack
import Verif.Props.Whole
/-!
# Lemmas: an accepted configuration is complete
-/

namespace Verif.Whole
open Verif Verif.Whole.Spec

theorem size_positive {v t : Val} {q : ℚ × ℚ} (ht : Make.toTuple v = .ok t) (h : sizeOf t = some q) (hq : 0 < q.1 ∧ 0 < q.2) :
    ∃ l, Items l v ∧ ∀ x ∈ l, Types.Spec.Positive x := by
  obtain ⟨x, y, rest, hi, hx, hy⟩ := size_some ht h
  refine ⟨_, hi, ?_⟩
  rw [tuple_of hi] at ht
  cases ht
  intro z hz
  rcases List.mem_cons.mp hz with rfl | hz
  · exact ⟨_, isNumber_of hx, lt_of hq.1⟩
  rcases List.mem_cons.mp hz with rfl | hz
  · exact ⟨_, isNumber_of hy, lt_of hq.2⟩
  have hall : rest.all (fun v => match v.asNum with | some q => (Num.fin 0).lt q | none => false) = true := by
    unfold sizeOf at h
    simp only [rat_of hx, rat_of hy] at h
    split at h
    · assumption
    · cases h
  have := List.all_eq_true.mp hall z hz
  split at this
  · rename_i n hn
    refine ⟨n, ⟨hn, ?_⟩, ?_⟩
    · rintro rfl; cases this
    · cases n with
      | fin q =>
        simp only [Num.lt, decide_eq_true_eq] at this
        exact lt_of this
      | inf => exact ⟨by simp [Types.Spec.Le], by simp⟩
      | neginf => cases this
      | nan => cases this
  · cases this

theorem devices_range {D n : Nat} {v : Val} (h : deviceCount D v = .ok n) {vs : List Val} {zs : List Int} (hi : Items vs v)
    (hz : List.Forall₂ IsInt zs vs) : ∀ z ∈ zs, -(D : Int) ≤ z := by
  have key : (zs.filter (· < (D : Int))).any (· < -(D : Int)) = false := by
    rcases hi with rfl | rfl
    all_goals
      unfold deviceCount at h
      simp only [mapM_of hz] at h
      split at h
      · cases h
      · rename_i hn; simpa using hn
  intro z hz'
  rcases lt_or_ge z (D : Int) with hlt | hge
  · rw [List.any_eq_false] at key
    have := key z (List.mem_filter.mpr ⟨hz', by simpa using hlt⟩)
    simpa using this
  · omega

theorem build_positive {fl fl32 : ℚ → ℚ} {a : Geometry.Args} {g : Geometry.Geo} (h : Geometry.build fl fl32 a = .ok g) :
    (0 < a.flowFieldSize.1 ∧ 0 < a.flowFieldSize.2) ∧ (0 < a.flowShape.1 ∧ 0 < a.flowShape.2) ∧ 0 < a.resolution := by
  unfold Geometry.build at h
  split at h
  · cases h
  split at h
  · cases h
  split at h
  · cases h
  rename_i h1 h2 h3
  exact ⟨not_not.mp h1, not_not.mp h2, not_le.mp h3⟩

/-- What an accepted configuration also satisfies. -/
theorem synth_proper {E : Env} {p : Make.Pipe} {d : Make.Dict} {sa : Make.SynthArgs} {a : Synthetic.Args} {m : Synthetic.Made}
    (h : Make.synthFromConfig (world E) p d = .ok (.synthetic p sa)) (hb : synthBuild E p sa = .ok (a, m)) :
    Proper E d ∧ a.spec.imgOffset = (0, 0) := by
  unfold Make.synthFromConfig at h
  simp only [Make.andThen_ok] at h
  obtain ⟨mask, hmask, hist, hhist, bs, hbs, shape, ⟨shape', hshape', hshape⟩, off, ⟨off', hoff', hoff⟩, dens, ⟨dens', hdens', hdens⟩,
    h1, hh1, h2, hh2, dr, ⟨dr', hdr', hdr⟩, dv, hdv, ir, ⟨ir', hir', hir⟩, iv, hiv, rr, ⟨rr', hrr', hrr⟩, rv, hrv, dt, hdt, nu, hnu, nm, hnm,
    ns, hns, spec, hspec, bpfb, hbpfb, ffpb, hffpb, ffs, ⟨ffs', hffs', hffs⟩, res, hres, vpp, hvpp, seed, hseed, maxX, hmaxX, maxY, hmaxY,
    minX, hminX, minY, hminY, units, hunits, u, hu, h⟩ := h
  cases h
  unfold synthBuild at hb
  split at hb
  · cases hb
  rename_i a' ha
  split at hb
  swap
  · cases hb
  rename_i m' hm
  cases hb
  unfold synthArgs at ha
  obtain ⟨sp, hsp, ha⟩ := Option.bind_eq_some_iff.mp ha
  obtain ⟨nd, hnd, ha⟩ := Option.bind_eq_some_iff.mp ha
  obtain ⟨zb, hzb, ha⟩ := Option.bind_eq_some_iff.mp ha
  obtain ⟨zf, hzf, ha⟩ := Option.bind_eq_some_iff.mp ha
  obtain ⟨zs, hzs, ha⟩ := Option.bind_eq_some_iff.mp ha
  obtain ⟨size, hsize, ha⟩ := Option.bind_eq_some_iff.mp ha
  have hsz : a.flowFieldSize = size := by
    obtain ⟨_, _, ha⟩ := Option.bind_eq_some_iff.mp ha
    obtain ⟨_, _, ha⟩ := Option.bind_eq_some_iff.mp ha
    obtain ⟨_, _, ha⟩ := Option.bind_eq_some_iff.mp ha
    obtain ⟨_, _, ha⟩ := Option.bind_eq_some_iff.mp ha
    obtain ⟨_, _, ha⟩ := Option.bind_eq_some_iff.mp ha
    obtain ⟨_, _, ha⟩ := Option.bind_eq_some_iff.mp ha
    obtain ⟨_, _, ha⟩ := Option.bind_eq_some_iff.mp ha
    obtain ⟨_, _, ha⟩ := Option.bind_eq_some_iff.mp ha
    obtain ⟨_, _, ha⟩ := Option.bind_eq_some_iff.mp ha
    cases ha; rfl
  have hsp' : a.spec = sp.1 := by
    obtain ⟨_, _, ha⟩ := Option.bind_eq_some_iff.mp ha
    obtain ⟨_, _, ha⟩ := Option.bind_eq_some_iff.mp ha
    obtain ⟨_, _, ha⟩ := Option.bind_eq_some_iff.mp ha
    obtain ⟨_, _, ha⟩ := Option.bind_eq_some_iff.mp ha
    obtain ⟨_, _, ha⟩ := Option.bind_eq_some_iff.mp ha
    obtain ⟨_, _, ha⟩ := Option.bind_eq_some_iff.mp ha
    obtain ⟨_, _, ha⟩ := Option.bind_eq_some_iff.mp ha
    obtain ⟨_, _, ha⟩ := Option.bind_eq_some_iff.mp ha
    obtain ⟨_, _, ha⟩ := Option.bind_eq_some_iff.mp ha
    cases ha; rfl
  obtain ⟨_, _, _, _, _, _, _, k8, _⟩ := Synthetic.make_ok hm
  have hpos : 0 < size.1 ∧ 0 < size.2 := by
    have := (build_positive k8).1
    rw [← hsz]; exact this
  refine ⟨⟨⟨_, item_ok hffs', size_positive hffs hsize hpos⟩, ?_⟩, ?_⟩
  · intro v vs zs' hv hi hz
    have hdc : deviceCount E.devices (Make.getD d "device_ids" .none) = .ok nd := by
      dsimp only at hnd
      cases hq : deviceCount E.devices (Make.getD d "device_ids" .none) with
      | error e => rw [hq] at hnd; cases hnd
      | ok n => rw [hq] at hnd; cases hnd; rfl
    rw [getD_of hv] at hdc
    exact devices_range hdc hi hz
  · rw [hsp']
    unfold specOf at hsp
    iterate 16 obtain ⟨_, _, hsp⟩ := Option.bind_eq_some_iff.mp hsp
    cases hsp
    rfl

/-- The arguments of an accepted sampler are all right. -/
theorem fine_of_make {fl fl32 : ℚ → ℚ} {a : Synthetic.Args} {m : Synthetic.Made} (h : Synthetic.make fl fl32 a = .ok m) : Fine a := by
  obtain ⟨k1, k2, k3, k4, k5, k6, _, k8, _⟩ := Synthetic.make_ok h
  obtain ⟨c1, c2, c3, c4, c5, c6, _⟩ := Sampler.Cfg.make_ok k4
  obtain ⟨g1, g2, g3⟩ := build_positive k8
  simp only [Synthetic.specOK, Bool.and_eq_true, decide_eq_true_eq, List.all_eq_true] at k1
  obtain ⟨⟨⟨⟨⟨⟨⟨⟨⟨⟨⟨⟨⟨⟨⟨s1, s2⟩, s3⟩, s4⟩, s5⟩, s6⟩, s7⟩, s8⟩, s9⟩, s10⟩, s11⟩, s12⟩, s13⟩, s14⟩, s15⟩, s16⟩ := k1
  exact {
    ranges := ⟨s1, s2, s3, s4, s5, ⟨s6.1, s7⟩, ⟨List.length_pos_iff.1 s8, s9⟩, ⟨List.length_pos_iff.1 s10, s11⟩,
      ⟨List.length_pos_iff.1 s12, s13⟩, s14, s15, s16⟩
    mask := by
      intro mm hmm
      unfold Synthetic.maskOK at k2
      rw [hmm] at k2
      simpa using k2
    histogram := by
      intro hh hhh
      unfold Synthetic.histogramOK Synthetic.isClose at k3
      rw [hhh] at k3
      simp only [Bool.and_eq_true, decide_eq_true_eq] at k3
      refine ⟨k3.1, ?_⟩
      have := k3.2
      rw [abs_of_nonneg (a := (((a.spec.imageShape.1 * a.spec.imageShape.2 : Nat)) : ℚ)) (Nat.cast_nonneg _)] at this
      push_cast at this
      exact this
    devices := c2
    bpfb := c3
    ffpb := ⟨c4, c5⟩
    seed := c6
    velocitiesPerPixel := k6
    flowFieldSize := g1
    flowShape := g2
    resolution := g3
    channels := k5 }

/-- The first file of the scheduler. -/
theorem firstFile_eq {E : Env} {a : Make.BaseArgs} {files : List String} {r lp : Bool} (hk : a.key = none)
    (hrnd : r = true → ∀ k n, (E.perm k n).Perm (List.range n)) (hne : files ≠ []) :
    firstFile E a files { randomize := r, loop := lp } = firstOf E r files := by
  unfold firstFile firstOf Base.shuffle
  have hu : a.usedKey = .seed 0 := by unfold Make.BaseArgs.usedKey; rw [hk]; rfl
  rw [hu]
  cases r with
  | false => rfl
  | true =>
    have hp := hrnd rfl (KeyTerm.split2 (.seed 0)).2 files.length
    simp only [if_true, Base.pick, h5World, Formats.h5World]
    cases hq : E.perm (KeyTerm.split2 (.seed 0)).2 files.length with
    | nil =>
      rw [hq] at hp
      have := hp.length_eq
      simp only [List.length_nil, List.length_range] at this
      exact absurd (List.length_eq_zero_iff.mp this.symm) hne
    | cons i l => rfl

theorem key_none (kind : Make.Kind) (kw : Make.Kw) : (Make.baseFromConfig kind kw).key = none := by cases kind <;> rfl
theorem kind_eq (kind : Make.Kind) (kw : Make.Kw) : (Make.baseFromConfig kind kw).kind = kind := by cases kind <;> rfl

/-- The grid the sampler sees. -/
theorem grid_iff {E : Env} {kind : Make.Kind} {kw : Make.Kw} {files : List String} {r lp : Bool} (hsh : kw.outputShape = none)
    (hb : buildBase E (Make.baseFromConfig kind kw) = .ok (files, { randomize := r, loop := lp }))
    (hrnd : r = true → ∀ k n, (E.perm k n).Perm (List.range n)) (hne : files ≠ []) {g : Nat × Nat} {c : Nat} :
    threeOf E (.base (Make.baseFromConfig kind kw)) = some (g, c) ↔ GridOf E kind (firstOf E r files) g c := by
  have hff := firstFile_eq (E := E) (lp := lp) (key_none kind kw) hrnd hne
  unfold threeOf pipeShape flowShape
  rw [hb]
  dsimp only
  rw [kind_eq, hff]
  unfold GridOf
  generalize firstOf E r files = first
  obtain ⟨g1, g2⟩ := g
  cases kind with
  | h5 =>
    dsimp only [Make.baseFromConfig]
    unfold Formats.h5Shape Formats.h5Load
    cases h : E.h5 first with
    | error e => simp
    | ok l =>
      cases l with
      | nil => simp
      | cons q l =>
        obtain ⟨name, o⟩ := q
        cases o with
        | none => simp
        | some v =>
          dsimp only
          cases h0 : v.shape[0]? <;> cases h2 : v.shape[2]? <;> simp [h0, h2, and_assoc, eq_comm]
  | mat =>
    simp only [Make.baseFromConfig, hsh, Formats.matShape, matCfg, Option.getD, Val.asInt, Option.some.injEq, Prod.mk.injEq]
    constructor
    · rintro ⟨⟨h1, h2⟩, h3⟩; exact ⟨⟨h1.symm, h2.symm⟩, h3.symm⟩
    · rintro ⟨⟨h1, h2⟩, h3⟩; exact ⟨⟨h1.symm, h2.symm⟩, h3.symm⟩
  | npy =>
    cases h : E.np.npy first with
    | error e => simp
    | ok x =>
      dsimp only
      constructor
      · intro h1
        split at h1
        · rename_i a b c' he
          simp only [Except.ok.injEq] at he
          cases h1
          exact ⟨x, rfl, he⟩
        · cases h1
      · rintro ⟨y, hy, hs⟩
        cases hy
        rw [hs]

end Verif.Whole
