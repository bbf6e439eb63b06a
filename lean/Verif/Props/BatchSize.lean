import Verif.Model.BatchSize
import Verif.Spec.BaseDemo
import Verif.Model.BaseInit
/-!
# C165: requests for no sample, and for a negative number of samples
-/

namespace Verif.Base
open Verif
variable {V D Key : Type}

theorem getBatchInt_pos (zero : V) (w : World V D Key) (c : Cfg) (fuel : Nat) (n : Int) (hn : 0 ≤ n) (s : St D Key) :
    getBatchInt zero w c fuel n s = getBatch zero w c fuel n.toNat s := by unfold getBatchInt; rw [if_neg (by omega)]

/-- **C165**, negative numbers: `ValueError`, and nothing changes. -/
theorem C165_negative (zero : V) (w : World V D Key) (c : Cfg) (fuel : Nat) (n : Int) (hn : n < 0) (s : St D Key) :
    getBatchInt zero w c fuel n s = some (.error .valueError, s) := by simp [getBatchInt, hn]

/-- **C165**, no samples: nothing changes if the scheduler does not loop; it answers with `StopIteration`, as if it had no data left. -/
theorem C165_zero_once (zero : V) (w : World V D Key) (c : Cfg) (hloop : c.loop = false) (fuel : Nat) (s : St D Key) :
    getBatchInt zero w c fuel 0 s = some (.error .stopIteration, s) := by simp [getBatchInt, getBatch, collect, hloop]

/-- **C165** fails for no samples if the scheduler loops: it answers with `ValueError`, but has restarted the stream, in a new order if it shuffles. -/
theorem C165_refuted_loop (zero : V) (w : World V D Key) (c : Cfg) (hloop : c.loop = true) (fuel : Nat) (s : St D Key) :
    getBatchInt zero w c fuel 0 s = some (.error .valueError, reset w c s) := by
  simp [getBatchInt, getBatch, collect, hloop, assemble, assembleImages, Arr.stack, bind, Except.bind]

/-- **C165** (partial): requests for a number of samples that is not positive, put anywhere into a sequence of requests, change none of the other answers and not
the state at the end. Missing: requests for no samples from a looping scheduler (`C165_refuted_loop`). -/
theorem C165_harmless_partial (zero : V) (w : World V D Key) (c : Cfg) (fuel : Nat) (ns : List Int) (s : St D Key)
    (hns : c.loop = true → (0 : Int) ∉ ns) :
    (runBatchesInt zero w c fuel ns s).map (fun r => (((ns.zip r.1).filter (fun q => 0 < q.1)).map Prod.snd, r.2)) =
      runBatches zero w c fuel ((ns.filter (0 < ·)).map Int.toNat) s := by
  induction ns generalizing s with
  | nil => rfl
  | cons n ns ih =>
    have ih := fun s => ih s (fun hl hm => hns hl (List.mem_cons_of_mem _ hm))
    have skip : ∀ e : Exc, ¬ 0 < n → getBatchInt zero w c fuel n s = some (.error e, s) →
        (runBatchesInt zero w c fuel (n :: ns) s).map (fun r => ((((n :: ns).zip r.1).filter (fun q => 0 < q.1)).map Prod.snd, r.2)) =
          runBatches zero w c fuel (((n :: ns).filter (0 < ·)).map Int.toNat) s := by
      intro e hn hg
      rw [List.filter_cons_of_neg (by simpa using hn), ← ih s]
      simp only [runBatchesInt, hg]
      cases hr : runBatchesInt zero w c fuel ns s with
      | none => rfl
      | some r =>
        simp only [Option.map_some, List.zip_cons_cons]
        rw [List.filter_cons_of_neg (by simpa using hn)]
    rcases lt_trichotomy n 0 with hn | hn | hn
    · exact skip .valueError (by omega) (C165_negative zero w c fuel n hn s)
    · subst hn
      have hl : c.loop = false := by
        cases hc : c.loop with
        | false => rfl
        | true => exact (hns hc (List.mem_cons_self ..)).elim
      exact skip .stopIteration (by omega) (C165_zero_once zero w c hl fuel s)
    · rw [List.filter_cons_of_pos (by simpa using hn), List.map_cons]
      simp only [runBatchesInt, runBatches, getBatchInt_pos zero w c fuel n (by omega) s]
      cases hg : getBatch zero w c fuel n.toNat s with
      | none => rfl
      | some q =>
        obtain ⟨r, s1⟩ := q
        simp only
        rw [← ih s1]
        cases hr : runBatchesInt zero w c fuel ns s1 with
        | none => rfl
        | some r' =>
          simp only [Option.map_some, List.zip_cons_cons]
          rw [List.filter_cons_of_pos (by simpa using hn)]
          rfl

/-- Between two requests of one sample each, requests for none and for minus three: the second sample follows the first. -/
example : ∃ s b1 b2, runBatchesInt 0 Demo.world ⟨false, false⟩ 7 [1, 0, -3, 1] (init Demo.world ⟨false, false⟩ ["a", "b"] (.seed 0)) =
    some ([.ok b1, .error .stopIteration, .error .valueError, .ok b2], s) ∧ b1.flow.data = [1] ∧ b2.flow.data = [2] := ⟨_, _, _, rfl, rfl, rfl⟩

/-- The same with a looping scheduler: a request for none makes the first sample come again. -/
example : ∃ s b1 b2, runBatchesInt 0 Demo.world ⟨true, false⟩ 7 [1, 0, 1] (init Demo.world ⟨true, false⟩ ["a", "b"] (.seed 0)) =
    some ([.ok b1, .error .valueError, .ok b2], s) ∧ b1.flow.data = [1] ∧ b2.flow.data = [1] := ⟨_, _, _, rfl, rfl, rfl⟩

/-- A negative request does not. -/
example : ∃ s b1 b2, runBatchesInt 0 Demo.world ⟨true, false⟩ 7 [1, -1, 1] (init Demo.world ⟨true, false⟩ ["a", "b"] (.seed 0)) =
    some ([.ok b1, .error .valueError, .ok b2], s) ∧ b1.flow.data = [1] ∧ b2.flow.data = [2] := ⟨_, _, _, rfl, rfl, rfl⟩

end Verif.Base
