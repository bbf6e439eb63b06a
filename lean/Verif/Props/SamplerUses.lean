import Verif.Props.Sampler
/-!
# C37: how often the flow fields of a batch are reported
-/

namespace Verif.Sampler
open Verif
variable {F O I : Type}

/-- C37 for what the sampler returns: let an image batch be made from `n` flow fields (a multiple of the number of devices) that are different on the
output grid. Then each of them occurs `⌊B/n⌋` or `⌈B/n⌉` times among the reported ones; with one device the first `B mod n` occur once more than the
others. Missing: with several devices it is the first ones of each device (`C37_refuted`). -/
theorem C37_in_every_batch_partial [DecidableEq O] (g : Gen F O I) (b : Int) (nd : Nat) (ep : Bool) (bpfb ffpb seed : Int) (cfg : Cfg)
    (h : Cfg.make b nd ep bpfb ffpb seed = .ok cfg) (k : KeyTerm) (fb : FlowBatch F) (x : OutBatch O I) (hx : MadeFrom g cfg k fb x)
    (hdiv : nd ∣ fb.flows.length) (hdist : (fb.flows.map (fun f => (g.adapt f).1)).Nodup) (j : Nat) (f : F) (hj : fb.flows[j]? = some f) :
    cfg.batchSize / fb.flows.length ≤ x.flows.count (g.adapt f).1 ∧
    x.flows.count (g.adapt f).1 ≤ (cfg.batchSize + fb.flows.length - 1) / fb.flows.length ∧
    (nd = 1 → x.flows.count (g.adapt f).1 = cfg.batchSize / fb.flows.length + if j < cfg.batchSize % fb.flows.length then 1 else 0) := by
  have hls := C38_least_multiple b nd ep bpfb ffpb seed cfg h
  have hnd : 0 < nd := by
    unfold Cfg.make at h
    by_contra hc
    simp [show nd = 0 by omega] at h
  obtain ⟨hcd, hdb, _, _⟩ := hls
  obtain ⟨_, hxl, _, _, hm⟩ := hx
  have hjl : j < fb.flows.length := (List.getElem?_eq_some_iff.mp hj).1
  have hcount : x.flows.count (g.adapt f).1 = uses cfg.batchSize nd fb.flows.length j := by
    have e : x.flows.map some = (List.range cfg.batchSize).map (fun i => x.flows[i]?) := by
      apply List.ext_getElem
      · simp [hxl]
      · intro i h1 h2
        simp at h1 h2 ⊢
    have e2 : x.flows.count (g.adapt f).1 = (x.flows.map some).count (some (g.adapt f).1) :=
      by unfold List.count; rw [List.countP_map]; exact List.countP_congr (fun a _ => by simp)
    rw [e2, e]
    unfold uses List.count
    rw [List.countP_map]
    apply List.countP_congr
    intro i hi
    rw [List.mem_range] at hi
    obtain ⟨f', h1, h2, _⟩ := hm i hi
    rw [hcd] at h1
    simp only [Function.comp_apply, h2, beq_iff_eq, Option.some.injEq, decide_eq_true_eq]
    constructor
    · intro hff
      have hl' := (List.getElem?_eq_some_iff.mp h1).1
      have q1 : (fb.flows.map (fun f => (g.adapt f).1))[flowOf cfg.batchSize nd fb.flows.length i]? = some (g.adapt f').1 := by simp [h1]
      have q2 : (fb.flows.map (fun f => (g.adapt f).1))[j]? = some (g.adapt f').1 := by simp [hj, hff]
      exact (List.getElem?_inj (by simpa using hl') hdist).mp (q1.trans q2.symm)
    · rintro rfl
      rw [h1] at hj
      cases hj
      rfl
  have key := C37_used_evenly_partial cfg.batchSize nd fb.flows.length hnd hdb hdiv (by omega) j hjl
  rw [hcount]
  refine ⟨key.1, key.2.1, ?_⟩
  rintro rfl
  exact key.2.2.2 rfl

/-- Six images from four flow fields on two devices: the hypotheses are met; the flow fields are reported 2, 1, 2 and 1 times. -/
example : ∃ (cfg : Cfg) (x : OutBatch Nat (Nat × Nat)), Cfg.make 6 2 false 1 4 0 = .ok cfg ∧
    MadeFrom demoGen cfg (batchKey 0 0) ⟨[0, 1, 2, 3], none, none⟩ x ∧ ([0, 1, 2, 3].map (fun f => (demoGen.adapt f).1)).Nodup ∧
    [0, 1, 2, 3].map (fun f => x.flows.count (demoGen.adapt f).1) = [2, 1, 2, 1] :=
  ⟨⟨6, 2, 1, 4, 0⟩, _, rfl, MadeFrom.of_images demoGen _ ⟨by decide, by decide, by decide, by decide⟩ _ ⟨[0, 1, 2, 3], none, none⟩ (by decide) (by decide) none, by decide, by decide⟩

end Verif.Sampler
