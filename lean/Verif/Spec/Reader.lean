import Verif.Model.Sampler
/-!
# What every history of calls on a sampler shows (property C156)

A reader holds the samples of a pass over the files that are still to come. The text below does not use the model of the code, except for the
names of the calls and of their outcomes (`Sampler.Op`, `Sampler.Out`).
-/

namespace Verif.Reader
open Verif Sampler
variable {α β : Type}

/-- `l` is one pass over the files: their samples, file by file, in one order of the files, the given one unless `rnd`. -/
def IsPass (files : List String) (rnd : Bool) (items : String → List α) (l : List α) : Prop :=
  ∃ order : List String, order.Perm files ∧ (rnd = false → order = files) ∧ l = order.flatMap items

/-- What comes when the current pass is used up: further passes if the reader loops, nothing otherwise. -/
def Ahead (loop : Bool) (pass : List α → Prop) (more : List α) : Prop :=
  if loop then ∃ passes : List (List α), (∀ l ∈ passes, pass l) ∧ more = passes.flatten else more = []

/-- The outcomes `outs` of the calls `ops` on a sampler that shows every sample once, `m` at a time, when the samples `rest` of the current pass
are still to come. `Batch l x`: the batch `x` shows the samples `l`.

* `next` shows the next `m` samples, fewer only when a reader that does not loop runs out, and raises `StopIteration` when there are none;
* `reset()` starts a new pass;
* `reset(scheduler_reset=False)` changes nothing;
* `next_episode()` raises `AttributeError`. -/
def Shown (m : Nat) (loop : Bool) (pass : List α → Prop) (Batch : List α → β → Prop) : List α → List Op → List (Out β) → Prop
  | _, [], outs => outs = []
  | rest, .next :: ops, outs => ∃ more, Ahead loop pass more ∧ (loop = true → m ≤ (rest ++ more).length) ∧
      ((rest ++ more = [] ∧ ∃ outs', outs = .raised .stopIteration :: outs' ∧ Shown m loop pass Batch [] ops outs') ∨
       (rest ++ more ≠ [] ∧ ∃ x outs', outs = .batch x :: outs' ∧ Batch ((rest ++ more).take m) x ∧
          Shown m loop pass Batch ((rest ++ more).drop m) ops outs'))
  | _, .reset true :: ops, outs => ∃ new outs', pass new ∧ outs = .done :: outs' ∧ Shown m loop pass Batch new ops outs'
  | rest, .reset false :: ops, outs => ∃ outs', outs = .done :: outs' ∧ Shown m loop pass Batch rest ops outs'
  | rest, .nextEpisode :: ops, outs => ∃ outs', outs = .raised .attributeError :: outs' ∧ Shown m loop pass Batch rest ops outs'

/-- The outcomes `outs` of the calls `ops` on a sampler that makes `k` image batches from every `m` samples, when the samples `rest` of the current
pass are still to come, `used` batches have been made from the samples `cur`, and `n` batches since the last reset. `Made n l x`: the batch `x` is
number `n`, made from the samples `l`.

* `next` makes the next batch from `cur`, or, after `k` of them, from the next `m` samples, fewer only when a reader that does not loop runs out.
  When there are none it raises `StopIteration`, and counts the batches made from `cur` from zero again: what it shows from then on is the last
  batch of samples over again (see C35);
* `reset()` starts a new pass and numbers the batches from zero;
* `reset(scheduler_reset=False)` goes on in the current pass, drops what `cur` is left with and numbers the batches from zero;
* `next_episode()` raises `AttributeError`. -/
def Makes (m k : Nat) (loop : Bool) (pass : List α → Prop) (Made : Nat → List α → β → Prop) :
    List α → Option (List α) → Nat → Nat → List Op → List (Out β) → Prop
  | _, _, _, _, [], outs => outs = []
  | rest, cur, used, n, .next :: ops, outs =>
      (∃ l, cur = some l ∧ used < k ∧ ∃ x outs', outs = .batch x :: outs' ∧ Made n l x ∧
        Makes m k loop pass Made rest cur (used + 1) (n + 1) ops outs') ∨
      ((cur = none ∨ k ≤ used) ∧ ∃ more, Ahead loop pass more ∧ (loop = true → m ≤ (rest ++ more).length) ∧
        ((rest ++ more = [] ∧ ∃ outs', outs = .raised .stopIteration :: outs' ∧ Makes m k loop pass Made [] cur 0 n ops outs') ∨
         (rest ++ more ≠ [] ∧ ∃ x outs', outs = .batch x :: outs' ∧ Made n ((rest ++ more).take m) x ∧
            Makes m k loop pass Made ((rest ++ more).drop m) (some ((rest ++ more).take m)) 1 (n + 1) ops outs')))
  | _, _, _, _, .reset true :: ops, outs => ∃ new outs', pass new ∧ outs = .done :: outs' ∧ Makes m k loop pass Made new none 0 0 ops outs'
  | rest, _, _, _, .reset false :: ops, outs => ∃ outs', outs = .done :: outs' ∧ Makes m k loop pass Made rest none 0 0 ops outs'
  | rest, cur, used, n, .nextEpisode :: ops, outs =>
      ∃ outs', outs = .raised .attributeError :: outs' ∧ Makes m k loop pass Made rest cur used n ops outs'

end Verif.Reader
