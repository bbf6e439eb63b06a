import Verif.Props.EvenExactly
import Verif.Props.Devices
/-!
# C142, exactly: when the number of devices does not matter
-/

namespace Verif.Devices
open Verif Sampler
variable {S F O I I' : Type}

private theorem flowOf_differs {b n d d' : Nat} (hd : 0 < d) (hlt : d < d') (hb : d ∣ b) (hb' : d' ∣ b) (hn : d ∣ n) (hn' : d' ∣ n) (hn0 : 0 < n) (hnb : n < b) :
    ∃ i, i < b ∧ flowOf b d n i ≠ flowOf b d' n i ∧ flowOf b d n i < n ∧ flowOf b d' n i < n := by
  obtain ⟨m, rfl⟩ := hn
  obtain ⟨m', hm'⟩ := hn'
  obtain ⟨B, rfl⟩ := hb
  obtain ⟨B', hB'⟩ := hb'
  have hd' : 0 < d' := by omega
  have m0 : 0 < m := Nat.pos_of_mul_pos_left hn0
  have m0' : 0 < m' := by rw [hm'] at hn0; exact Nat.pos_of_mul_pos_left hn0
  have hmB : m < B := Nat.lt_of_mul_lt_mul_left hnb
  have hmB' : m' < B' := by rw [hm', hB'] at hnb; exact Nat.lt_of_mul_lt_mul_left hnb
  have hmm : m' < m := by
    by_contra hc
    have h1 : d * m ≤ d * m' := Nat.mul_le_mul_left _ (by omega)
    have h2 : d * m' < d' * m' := Nat.mul_lt_mul_of_pos_right hlt m0'
    omega
  have e1 : flowOf (d * B) d (d * m) m' = m' := by
    unfold flowOf
    rw [Nat.mul_div_cancel_left _ hd, Nat.mul_div_cancel_left _ hd, Nat.div_eq_of_lt (by omega), Nat.mod_eq_of_lt (show m' < B by omega), Nat.mod_eq_of_lt hmm]
    omega
  have e2 : flowOf (d * B) d' (d * m) m' = 0 := by
    unfold flowOf
    rw [hB', hm', Nat.mul_div_cancel_left _ hd', Nat.mul_div_cancel_left _ hd', Nat.div_eq_of_lt hmB', Nat.mod_eq_of_lt hmB', Nat.mod_self]
    omega
  have hle : m ≤ d * m := Nat.le_mul_of_pos_left _ hd
  have hle' : B ≤ d * B := Nat.le_mul_of_pos_left _ hd
  exact ⟨m', by omega, by rw [e1, e2]; omega, by rw [e1]; omega, by rw [e2]; omega⟩

/-- **C142, exactly**: two samplers with the same arguments but for seed and number of devices, which divide the batch size and the number of flow fields, report the same
flow fields in the same order for a batch of different flow fields, if and only if they have the same number of devices or there are as many flow fields as images. -/
theorem C142_exactly (g : Gen F O I) (g' : Gen F O I') (hg : g'.adapt = g.adapt) (b d d' : Nat) (ep : Bool) (bpfb ffpb seed seed' : Int) (cfg cfg' : Cfg)
    (h : Cfg.make b d ep bpfb ffpb seed = .ok cfg) (h' : Cfg.make b d' ep bpfb ffpb seed' = .ok cfg') (hd : d ∣ b) (hd' : d' ∣ b) (k k' : KeyTerm)
    (fb : FlowBatch F) (x : OutBatch O I) (x' : OutBatch O I') (hx : MadeFrom g cfg k fb x) (hx' : MadeFrom g' cfg' k' fb x')
    (hn : (fb.flows.length : Int) = ffpb) (hdn : d ∣ fb.flows.length) (hdn' : d' ∣ fb.flows.length) (hdiff : (fb.flows.map (fun f => (g.adapt f).1)).Nodup) :
    (∀ i, i < b → x.flows[i]? = x'.flows[i]?) ↔ d = d' ∨ fb.flows.length = b := by
  obtain ⟨h1, h2, _, h4, h5, _, rfl⟩ := Cfg.make_ok h
  obtain ⟨_, h2', _, _, _, _, rfl⟩ := Cfg.make_ok h'
  obtain ⟨_, _, _, _, hm⟩ := hx
  obtain ⟨_, _, _, _, hm'⟩ := hx'
  have hb : ((b : Int).toNat) = b := Int.toNat_natCast b
  simp only [hb, roundUp_dvd hd, roundUp_dvd hd'] at hm hm'
  have hn0 : 0 < fb.flows.length := by omega
  have hle : fb.flows.length ≤ b := by omega
  have key : ∀ i, i < b → ∀ (l1 : flowOf b d fb.flows.length i < fb.flows.length) (l2 : flowOf b d' fb.flows.length i < fb.flows.length),
      (x.flows[i]? = x'.flows[i]? ↔ flowOf b d fb.flows.length i = flowOf b d' fb.flows.length i) := by
    intro i hi l1 l2
    obtain ⟨f, q1, q2, _⟩ := hm i hi
    obtain ⟨f', q1', q2', _⟩ := hm' i hi
    rw [hg] at q2'
    rw [q2, q2', Option.some.injEq]
    obtain ⟨_, q1⟩ := List.getElem?_eq_some_iff.1 q1
    obtain ⟨_, q1'⟩ := List.getElem?_eq_some_iff.1 q1'
    constructor
    · intro e
      have e2 : (fb.flows.map (fun f => (g.adapt f).1))[flowOf b d fb.flows.length i]'(by simpa using l1) =
          (fb.flows.map (fun f => (g.adapt f).1))[flowOf b d' fb.flows.length i]'(by simpa using l2) := by
        rw [List.getElem_map, List.getElem_map, q1, q1', e]
      exact (List.Nodup.getElem_inj_iff hdiff).1 e2
    · intro e
      have : f = f' := by rw [← q1, ← q1']; congr 1
      rw [this]
  constructor
  · intro hall
    by_contra hc
    push Not at hc
    obtain ⟨c1, c2⟩ := hc
    have hlt : fb.flows.length < b := lt_of_le_of_ne hle c2
    rcases Nat.lt_or_gt_of_ne c1 with hl | hl
    · obtain ⟨i, hi, hne, l1, l2⟩ := flowOf_differs h2 hl hd hd' hdn hdn' hn0 hlt
      exact hne ((key i hi l1 l2).mp (hall i hi))
    · obtain ⟨i, hi, hne, l1, l2⟩ := flowOf_differs h2' hl hd' hd hdn' hdn hn0 hlt
      exact hne ((key i hi l2 l1).mp (hall i hi)).symm
  · intro hcase i hi
    obtain ⟨f, q1, q2, _⟩ := hm i hi
    obtain ⟨f', q1', q2', _⟩ := hm' i hi
    rw [hg] at q2'
    have e : flowOf b d fb.flows.length i = flowOf b d' fb.flows.length i := by
      rcases hcase with rfl | e
      · rfl
      · rw [e, flowOf_all d hi, flowOf_all d' hi]
    rw [e] at q1
    rw [q1] at q1'
    cases q1'
    rw [q2, q2']

/-- Eight images of four flow fields on two and on four devices; of eight flow fields. -/
example : (List.range 8).map (flowOf 8 2 4) = [0, 1, 0, 1, 2, 3, 2, 3] ∧ (List.range 8).map (flowOf 8 4 4) = [0, 0, 1, 1, 2, 2, 3, 3] ∧
    (List.range 8).map (flowOf 8 2 8) = (List.range 8).map (flowOf 8 4 8) := by decide

end Verif.Devices
