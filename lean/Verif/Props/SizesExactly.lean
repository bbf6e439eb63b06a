import Verif.Props.Sampler
/-!
# C38, exactly: which sizes the synthetic sampler accepts, and what it makes of them
-/

namespace Verif.Sampler
open Verif

/-- **C38**, exactly: integers are accepted if and only if the sizes are positive, there is a device, no more flow fields than requested
images are used per batch and the seed is not negative; everything else is a `ValueError`. -/
theorem C38_iff (b : Int) (nd : Nat) (ep : Bool) (bpfb ffpb seed : Int) :
    ((∃ cfg, Cfg.make b nd ep bpfb ffpb seed = .ok cfg) ↔
      0 < b ∧ 0 < nd ∧ 0 < bpfb ∧ 0 < ffpb ∧ ffpb ≤ b ∧ 0 ≤ seed) ∧
    ∀ e, Cfg.make b nd ep bpfb ffpb seed = .error e → e = .valueError := by
  unfold Cfg.make
  split_ifs with h1 h2 h3 h4 h5 h6
  all_goals first
    | (refine ⟨⟨?_, ?_⟩, ?_⟩
       · rintro ⟨cfg, h⟩; cases h
       · intro h; omega
       · intro e h; cases h; rfl)
    | (refine ⟨⟨fun _ => by omega, fun _ => ⟨_, rfl⟩⟩, ?_⟩
       intro e h; cases h)

/-- **C38**, what is accepted is used as given: the number of devices, of flow fields per batch and the seed; the number of batches per
flow batch too, except that it is 1 if the sampler plays episodes. -/
theorem C38_kept (b : Int) (nd : Nat) (ep : Bool) (bpfb ffpb seed : Int) (cfg : Cfg) (h : Cfg.make b nd ep bpfb ffpb seed = .ok cfg) :
    cfg.ndevices = nd ∧ (cfg.ffpb : Int) = ffpb ∧ (cfg.seed : Int) = seed ∧ (cfg.bpfb : Int) = (if ep then 1 else bpfb) := by
  have ha := ((C38_iff b nd ep bpfb ffpb seed).1).mp ⟨cfg, h⟩
  obtain ⟨_, _, _, _, _, _, rfl⟩ := Cfg.make_ok h
  refine ⟨rfl, ?_, ?_, ?_⟩
  · show ((ffpb.toNat : Nat) : Int) = ffpb
    omega
  · show ((seed.toNat : Nat) : Int) = seed
    omega
  · show (((if (ep && bpfb != 1) = true then 1 else bpfb.toNat) : Nat) : Int) = _
    cases ep with
    | false => simp; omega
    | true =>
      by_cases h1 : bpfb = 1
      · subst h1; simp
      · simp [h1]

example : (∃ cfg, Cfg.make 7 3 false 2 7 0 = .ok cfg) ∧ ¬ (∃ cfg, Cfg.make 7 3 false 2 8 0 = .ok cfg) ∧
    ¬ (∃ cfg, Cfg.make 7 3 false 2 7 (-1) = .ok cfg) := by
  simp only [(C38_iff _ _ _ _ _ _).1]
  omega

end Verif.Sampler
