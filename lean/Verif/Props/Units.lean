import Verif.Proofs.Units
import Verif.Proofs.RoundingScale
import Verif.Props.Synthetic
/-!
# The choice of units (C135, C136)
-/

namespace Verif.Units
open Verif

/-- The same experiment in two notations: both constructors fail in the same way, or both succeed, and then every history of calls shows the same, up
to the change `ψ` of the reported flow fields, if the second scheduler delivers the flow fields of the first one changed by `φ`. -/
def Agree (fl fl32 : ℚ → ℚ) (R : Generate.Rand ℚ) (φ ψ : Adapter.Field2 ℚ → Adapter.Field2 ℚ) (a a' : Synthetic.Args) : Prop :=
  match Synthetic.make fl fl32 a, Synthetic.make fl fl32 a' with
  | .ok m, .ok m' =>
    ∀ (S : Type) (sch : Sampler.ISched S (Sampler.FlowBatch (Adapter.Field2 ℚ))) (s : S) (ops : List Sampler.Op),
      (Sampler.run (sched (flowBatch φ) sch) (Synthetic.gen fl fl32 R a' m') m'.cfg ops (Sampler.init m'.cfg s)).map Prod.fst =
        (Sampler.run sch (Synthetic.gen fl fl32 R a m) m.cfg ops (Sampler.init m.cfg s)).map (fun q => q.1.map (out ψ))
  | .error e, .error e' => e = e'
  | _, _ => False

theorem agree_units {fl fl32 : ℚ → ℚ} {c τ : ℚ} (hc : 0 < c) (hτ : 0 < τ) (h : ∀ q, fl (c * q) = c * fl q) (R : Generate.Rand ℚ) (a : Synthetic.Args) :
    Agree fl fl32 R (field (c / τ)) (if a.pixels = some true then id else field (c / τ)) a (args c τ a) := by
  unfold Agree
  rw [make_units hc hτ h]
  cases hm : Synthetic.make fl fl32 a with
  | error e => rfl
  | ok m =>
    intro S sch s ops
    obtain ⟨_, _, _, _, _, _, hp, _⟩ := Synthetic.make_ok hm
    have := run_follow (gen_units (fl32 := fl32) hc hτ h R a m) sch m.cfg ops (Sampler.init m.cfg s)
    have e : reported m.pixels (c / τ) = if a.pixels = some true then id else field (c / τ) := by
      rw [hp]
      unfold reported
      cases m.pixels
      · simp
      · simp only [if_true]; rfl
    rw [e] at this
    refine (congrArg (Option.map Prod.fst) this).trans ?_
    rw [Option.map_map]
    rfl

/-- **C135** (partial). In exact arithmetic, for all positive factors `c` of lengths and `τ` of times and all arguments of a synthetic sampler: written down in
the other units they are accepted iff they were before, and if the flow fields are given in the other units too, every history of calls shows the
same images, masks, file names, flags and failures, the same flow fields in pixels, and flow fields of velocities in the other units. -/
theorem C135_exact_partial (c τ : ℚ) (hc : 0 < c) (hτ : 0 < τ) (R : Generate.Rand ℚ) (a : Synthetic.Args) :
    Agree id id R (field (c / τ)) (if a.pixels = some true then id else field (c / τ)) a (args c τ a) :=
  agree_units hc hτ (fun _ => by simp only [id]) R a

/-- **C135** (partial), with the geometry and the number of particles computed in floats, for units that differ by powers of two. Missing from
C135: other units, for which rounding may make a difference of a pixel (`C135_refuted`). -/
theorem C135_float_partial (k l : Int) (R : Generate.Rand ℚ) (a : Synthetic.Args) :
    Agree binary64 binary32 R (field ((2 : ℚ) ^ k / (2 : ℚ) ^ l)) (if a.pixels = some true then id else field ((2 : ℚ) ^ k / (2 : ℚ) ^ l)) a
      (args ((2 : ℚ) ^ k) ((2 : ℚ) ^ l) a) :=
  agree_units (by positivity) (by positivity) (binary64_scale k) R a

/-- From metres and seconds to centimetres and milliseconds. -/
example : (Synthetic.make id id (args 100 1000 Synthetic.demo)).isOk = true ∧ (args 100 1000 Synthetic.demo).imgOffset = (400, 400) ∧
    (args 100 1000 Synthetic.demo).resolution = 1 / 100 ∧ (args 100 1000 Synthetic.demo).maxSpeedX = 1 / 5 ∧
    (Sampler.run (Synthetic.always (field (100 / 1000) Synthetic.demoFlow)) (Synthetic.gen id id Generate.demoRand (args 100 1000 Synthetic.demo)
      (made 100 Synthetic.demoMade)) Synthetic.demoMade.cfg [.next] (Sampler.init Synthetic.demoMade.cfg ())).map (fun q => q.1.map Synthetic.sizes) =
      some [(List.replicate 4 ((3, 4), (3, 4)), List.replicate 4 (2, 2), false)] :=
  ⟨by decide +kernel, by decide +kernel, by decide +kernel, by decide +kernel, rfl⟩

/-- **C135 is false with floats for other units**: the sampler of `C48_refuted` fails to show the last row and column, but does not in
units a 49th as large. -/
theorem C135_refuted : ∃ (c : ℚ) (a : Synthetic.Args) (m m' : Synthetic.Made), 0 < c ∧ Synthetic.make binary64 binary32 a = .ok m ∧
    Synthetic.make binary64 binary32 (args c 1 a) = .ok m' ∧ m.geo.bounds ≠ m'.geo.bounds :=
  ⟨49, Synthetic.narrow, { cfg := ⟨2, 1, 2, 1, 7⟩, geo := ⟨(1, 1), (0, 0), (63, 63), (0, 0), (10, 10)⟩, outShape := (42, 42), pixels := true },
   { cfg := ⟨2, 1, 2, 1, 7⟩, geo := ⟨(49, 49), (0, 0), (64, 64), (0, 0), (binary64 (100 / 490), binary64 (100 / 490))⟩, outShape := (42, 42), pixels := true },
   by decide +kernel, by decide +kernel, by decide +kernel, by decide +kernel⟩

/-! ## The unit of the reported flow -/

theorem sched_id {S B : Type} (sch : Sampler.ISched S B) : sched id sch = sch := by
  obtain ⟨gb, rs, ep⟩ := sch
  unfold sched
  congr 1
  funext n s
  show (gb n s).map _ = gb n s
  rcases gb n s with _ | ⟨_ | b, s'⟩ <;> rfl

theorem flowBatch_id {F : Type} : flowBatch (id : F → F) = id := by
  funext b
  unfold flowBatch
  rw [List.map_id]
  rfl

/-- **C136.** For every synthetic sampler that reports velocities, with any rounding: with `output_units = "pixels"` instead it is accepted iff it was
before, and every history of calls on the same scheduler shows the same images, masks, file names, flags and failures, and the same flow fields times the
resolution and `dt`. -/
theorem C136_output_units (fl fl32 : ℚ → ℚ) (R : Generate.Rand ℚ) (a : Synthetic.Args) (ha : a.pixels = some false) :
    Agree fl fl32 R id (field (a.resolution * a.spec.dt)) a { a with pixels := some true } := by
  have hmake : Synthetic.make fl fl32 { a with pixels := some true } = (Synthetic.make fl fl32 a).map (fun m => { m with pixels := true }) := by
    unfold Synthetic.make
    rw [ha]
    show (if ¬ Synthetic.specOK a.spec a.imgOffset then _ else if ¬ Synthetic.maskOK a then _ else if ¬ Synthetic.histogramOK a then _ else _) = _
    split
    · rfl
    split
    · rfl
    split
    · rfl
    dsimp only
    cases Sampler.Cfg.make a.spec.batchSize a.ndevices a.isEpisodic a.bpfb a.ffpb a.seed with
    | error e => rfl
    | ok cfg =>
      dsimp only
      split
      · rfl
      split
      · rfl
      rw [show Synthetic.Args.geometry { a with pixels := some true } = a.geometry from rfl]
      cases Geometry.build fl fl32 a.geometry <;> rfl
  unfold Agree
  rw [hmake]
  cases hm : Synthetic.make fl fl32 a with
  | error e => rfl
  | ok m =>
    intro S sch s ops
    obtain ⟨_, _, _, _, _, _, hp, _⟩ := Synthetic.make_ok hm
    have hpx : m.pixels = false := by rw [ha] at hp; exact (Option.some.inj hp).symm
    have hf : Follows id (field (a.resolution * a.spec.dt)) (Synthetic.gen fl fl32 R a m)
        (Synthetic.gen fl fl32 R { a with pixels := some true } { m with pixels := true }) := by
      refine ⟨fun f => ?_, fun k b i f => rfl⟩
      have hu : ∀ (A : Adapter.Args ℚ) (f : Adapter.Field2 ℚ), Adapter.units { A with pixels := true } f =
          field (A.resolution * A.dt) (Adapter.units { A with pixels := false } f) := by
        intro A f
        unfold Adapter.units field
        simp only [if_true, Bool.false_eq_true, if_false]
        congr 1
        funext j i
        exact Prod.ext (mul_comm _ _) (mul_comm _ _)
      refine Prod.ext ?_ rfl
      have := hu (Adapter.ofGeo a.geometry m.geo m.outShape (m.cfg.batchSize / m.cfg.ndevices) false)
        (Adapter.resized (Adapter.ofGeo a.geometry m.geo m.outShape (m.cfg.batchSize / m.cfg.ndevices) false)
          (Adapter.padEdge (m.geo.padding.1.toNat, m.geo.padding.2.toNat) f))
      unfold Synthetic.gen
      rw [hpx]
      exact this
    have := run_follow hf sch m.cfg ops (Sampler.init m.cfg s)
    rw [flowBatch_id, sched_id] at this
    rw [flowBatch_id, sched_id]
    refine (congrArg (Option.map Prod.fst) this).trans ?_
    rw [Option.map_map]
    rfl

example : (Synthetic.make id id { Synthetic.demo with pixels := some false }).isOk = true := by decide +kernel

end Verif.Units
