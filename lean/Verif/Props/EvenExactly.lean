import Verif.Props.Sampler
/-!
# Exactly when image `i` belongs to flow field `i mod n` (C36, C37)
-/

namespace Verif.Sampler
open Verif
variable {S F O I : Type}

theorem flowOf_all {b i : Nat} (d : Nat) (hi : i < b) : flowOf b d b i = i % b := by
  unfold flowOf
  rw [Nat.mod_mod, Nat.mod_eq_of_lt hi, Nat.mul_comm]
  exact Nat.div_add_mod i (b / d)

/-- **C36** exactly. In a batch made of `n` different flow fields, spread evenly over the devices, image and reported flow field `i` come from flow field `i mod n` for all `i` if and only if there is one
device, or as many flow fields as images. -/
theorem C36_exactly (g : Gen F O I) (b : Int) (nd : Nat) (ep : Bool) (bpfb ffpb seed : Int) (cfg : Cfg) (h : Cfg.make b nd ep bpfb ffpb seed = .ok cfg) (k : KeyTerm)
    (fb : FlowBatch F) (x : OutBatch O I) (hx : MadeFrom g cfg k fb x) (hn : (fb.flows.length : Int) = ffpb) (hd : nd ∣ fb.flows.length)
    (hdiff : (fb.flows.map (fun f => (g.adapt f).1)).Nodup) :
    (∀ i, i < cfg.batchSize → x.flows[i]? = (fb.flows[i % fb.flows.length]?).map (fun f => (g.adapt f).1)) ↔ nd = 1 ∨ fb.flows.length = cfg.batchSize := by
  obtain ⟨h1, h2, _, h4, h5, _, rfl⟩ := Cfg.make_ok h
  obtain ⟨_, _, _, _, hm⟩ := hx
  dsimp only at hm ⊢
  have hB : nd ∣ roundUp b.toNat nd := by unfold roundUp; split <;> first | exact Dvd.intro_left _ rfl | (apply Nat.dvd_of_mod_eq_zero; omega)
  have hle : fb.flows.length ≤ roundUp b.toNat nd := by
    have : b.toNat ≤ roundUp b.toNat nd := by
      unfold roundUp
      split
      · have := Nat.div_add_mod b.toNat nd
        have := Nat.mod_lt b.toNat h2
        nlinarith
      · exact le_rfl
    omega
  generalize roundUp b.toNat nd = B at *
  have hn0 : 0 < fb.flows.length := by omega
  constructor
  · intro hall
    by_contra hc
    push Not at hc
    obtain ⟨c1, c2⟩ := hc
    have hlt : fb.flows.length < B := lt_of_le_of_ne hle c2
    obtain ⟨m, hm'⟩ := hd
    obtain ⟨B', rfl⟩ := hB
    have hmB : m < B' := by rw [hm'] at hlt; exact Nat.lt_of_mul_lt_mul_left hlt
    have hm0 : 0 < m := by rw [hm'] at hn0; exact Nat.pos_of_mul_pos_left hn0
    have hBB : B' ≤ nd * B' := Nat.le_mul_of_pos_left _ h2
    have hi : m < nd * B' := lt_of_lt_of_le hmB hBB
    obtain ⟨f, q1, q2, _⟩ := hm m hi
    have e0 : flowOf (nd * B') nd fb.flows.length m = 0 := by
      unfold flowOf
      rw [Nat.mul_div_cancel_left _ h2, Nat.div_eq_of_lt hmB, Nat.mod_eq_of_lt hmB, hm', Nat.mul_div_cancel_left _ h2, Nat.mod_self]
      omega
    rw [e0] at q1
    have hmn : m < fb.flows.length := by
      rw [hm']
      have : 2 ≤ nd := by omega
      nlinarith
    have e1 := hall m hi
    rw [q2, Nat.mod_eq_of_lt hmn, List.getElem?_eq_getElem hmn, Option.map_some, Option.some.injEq] at e1
    obtain ⟨_, q1'⟩ := List.getElem?_eq_some_iff.1 q1
    have e2 : (fb.flows.map (fun f => (g.adapt f).1))[0]'(by simpa using hn0) = (fb.flows.map (fun f => (g.adapt f).1))[m]'(by simpa using hmn) := by
      rw [List.getElem_map, List.getElem_map, q1', e1]
    have := (List.Nodup.getElem_inj_iff hdiff).1 e2
    omega
  · intro hcase i hi
    obtain ⟨f, q1, q2, _⟩ := hm i hi
    have e : flowOf B nd fb.flows.length i = i % fb.flows.length := by
      rcases hcase with rfl | e
      · simp only [flowOf, Nat.div_one]
        rw [Nat.div_eq_of_lt hi, Nat.mod_eq_of_lt hi]
        omega
      · rw [e]
        exact flowOf_all nd hi
    rw [e] at q1
    rw [q2, q1, Option.map_some]

/-- **C37** exactly. The flow fields that are used once more than the others are the first `b mod n` ones if and only if there is one device, or none is used more than the others because `n` divides `b`. -/
theorem C37_exactly (b d n : Nat) (hd : 0 < d) (hb : d ∣ b) (hn : d ∣ n) (hn0 : 0 < n) :
    (∀ f, f < n → uses b d n f = b / n + if f < b % n then 1 else 0) ↔ d = 1 ∨ n ∣ b := by
  have hu := fun f hf => (C37_used_evenly_partial b d n hd hb hn hn0 f hf).2.2.1
  obtain ⟨b', rfl⟩ := hb
  obtain ⟨m, rfl⟩ := hn
  have hm : 0 < m := Nat.pos_of_mul_pos_left hn0
  simp only [Nat.mul_div_cancel_left _ hd] at hu
  have hmod : d * b' % (d * m) = d * (b' % m) := Nat.mul_mod_mul_left d b' m
  rw [hmod]
  have hr := Nat.mod_lt b' hm
  constructor
  · intro hall
    by_contra hc
    push Not at hc
    obtain ⟨c1, c2⟩ := hc
    have hr0 : 0 < b' % m := by
      rcases Nat.eq_zero_or_pos (b' % m) with e | e
      · exact absurd (Nat.mul_dvd_mul_left d (Nat.dvd_of_mod_eq_zero e)) c2
      · exact e
    have h2 : 2 ≤ d := by omega
    have hlt : b' % m < d * m := by nlinarith
    have e1 := hall _ hlt
    rw [hu _ hlt, Nat.mod_mod, if_neg (lt_irrefl _), if_pos (by nlinarith)] at e1
    omega
  · intro hcase f hf
    rw [hu f hf]
    rcases hcase with rfl | hdv
    · rw [Nat.one_mul] at hf ⊢
      rw [Nat.mod_eq_of_lt hf]
      simp
    · have : b' % m = 0 := Nat.mod_eq_zero_of_dvd ((Nat.mul_dvd_mul_iff_left hd).1 hdv)
      rw [this]
      simp

/-- Two devices: four flow fields for four images, and for eight images. -/
example : (List.range 4).map (flowOf 4 2 4) = [0, 1, 2, 3] ∧ (List.range 8).map (flowOf 8 2 4) = [0, 1, 0, 1, 2, 3, 2, 3] ∧ (List.range 8).map (· % 4) = [0, 1, 2, 3, 0, 1, 2, 3] ∧
    (List.range 4).map (uses 8 2 4) = [2, 2, 2, 2] ∧ (List.range 4).map (uses 6 2 4) = [2, 1, 2, 1] ∧ (List.range 4).map (uses 6 1 4) = [2, 2, 1, 1] := by decide

end Verif.Sampler
