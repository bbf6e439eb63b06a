import Verif.Model.Iteration
import Verif.Props.Episodic
/-!
# C127: what can be iterated
-/

namespace Verif.Iteration
open Verif ForLoop

/-- **C127** for samplers: `next(sampler)` is the next batch, and `for batch in sampler` makes these calls and nothing else. -/
theorem C127_samplers_partial {S B : Type} (next : S → Option (Except Exc B × S)) (s : S) :
    pyNext (samplerMethods next) s = next s ∧
      ∀ brk fuel, pyFor (samplerMethods next) brk fuel s = forLoop next brk fuel 0 s :=
  ⟨rfl, fun _ _ => rfl⟩

/-- **C127** is false for every scheduler in every state: `next(scheduler)`, which the description of the episodic scheduler uses, raises `TypeError`,
and so does a `for` statement, before its body has run. -/
theorem C127_refuted {S Key B : Type} :
    (∀ s : S, pyNext (baseMethods S B) s = some (.error .typeError, s) ∧
      ∀ brk fuel, pyFor (baseMethods S B) brk fuel s = some ([], .raised .typeError, s)) ∧
    (∀ e : Episodic.St S Key, pyNext (episodicMethods S Key B) e = some (.error .typeError, e) ∧
      ∀ brk fuel, ∃ e', pyFor (episodicMethods S Key B) brk fuel e = some ([], .raised .typeError, e')) ∧
    ∀ p : Prefetch.St S B, pyNext (prefetchMethods S B) p = some (.error .typeError, p) ∧
      ∀ brk fuel, pyFor (prefetchMethods S B) brk fuel p = some ([], .raised .typeError, p) :=
  ⟨fun _ => ⟨rfl, fun _ _ => rfl⟩, fun _ => ⟨rfl, fun _ _ => ⟨_, rfl⟩⟩, fun _ => ⟨rfl, fun _ _ => rfl⟩⟩

/-- **C127**: the attempt is not harmless. After a `for` statement in the middle of an episode the episodic scheduler says that all the steps of the
episode remain, while the wrapped scheduler is where it was. -/
theorem C127_counter_refuted {S Key B : Type} (cfg : Episodic.Cfg) (e : Episodic.St S Key) (ht : e.t ≠ 0) (brk : Nat → B → Bool) (fuel : Nat) :
    ∃ e', pyFor (episodicMethods S Key B) brk fuel e = some ([], .raised .typeError, e') ∧ e'.inner = e.inner ∧
      Episodic.stepsRemaining cfg e' = cfg.episodeLength ∧ Episodic.stepsRemaining cfg e' ≠ Episodic.stepsRemaining cfg e := by
  refine ⟨_, rfl, rfl, by simp [Episodic.stepsRemaining, Episodic.iter], ?_⟩
  simp only [Episodic.stepsRemaining, Episodic.iter]
  omega

/-- A state in the middle of an episode. -/
example : (Episodic.St.t (⟨(), 1, KeyTerm.seed 0⟩ : Episodic.St Unit KeyTerm)) ≠ 0 := by decide

end Verif.Iteration
