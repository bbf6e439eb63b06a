import Verif.Props.Synthetic
/-!
# Exactly when there is an entry of the mask for every pair (C90)
-/

namespace Verif.Synthetic
open Verif

/-- **C90** exactly. In every batch of every history the mask has `flow_fields_per_batch` entries, whatever the number of pairs; there is one for every pair if and only if
`flow_fields_per_batch` is the number of pairs (the batch size, rounded up to a multiple of the number of devices), and otherwise the last pairs have none. -/
theorem C90_exactly {D Key : Type} (w : Base.World ℚ D Key) (c : Base.Cfg) (fuel : Nat) (hw : Base.WorldWF w)
    (hns : ∀ p d i, w.slice p d i ≠ .fail .stopIteration) (f32 : ℚ → ℚ) (R : Generate.Rand ℚ) (a : Args) (m : Made) (hm : make id f32 a = .ok m)
    (s0 : Base.St D Key) (ops : List Sampler.Op) (outs : List (Sampler.Out (Sampler.OutBatch (Adapter.Field2 ℚ) Pair)))
    (s : Sampler.St (Base.St D Key) (Adapter.Field2 ℚ) (Adapter.Field2 ℚ))
    (hr : Sampler.run (Sampler.ofPlain (fieldSched w c fuel)) (gen id id R a m) m.cfg ops (Sampler.init m.cfg s0) = some (outs, s))
    (x : Sampler.OutBatch (Adapter.Field2 ℚ) Pair) (hx : .batch x ∈ outs) :
    ∃ mask, x.mask = some mask ∧ (mask.length : Int) = a.ffpb ∧
      ((∀ i, i < x.images.length → i < mask.length) ↔ a.ffpb = x.images.length) ∧
      (a.ffpb ≠ x.images.length → 0 < x.images.length ∧ mask[x.images.length - 1]? = none ∧ x.images[x.images.length - 1]? ≠ none) ∧
      a.ndevices ∣ x.images.length ∧ (a.spec.batchSize : Int) ≤ x.images.length ∧ x.images.length < a.spec.batchSize + a.ndevices := by
  obtain ⟨_, _, _, h4, _⟩ := make_ok hm
  obtain ⟨c1, c2, c3, c4⟩ := Sampler.C38_least_multiple _ _ _ _ _ _ _ h4
  obtain ⟨⟨b, k, _, _, _, hb⟩, _⟩ := Sampler.run_made (full_plain w c fuel) (Sampler.Cfg.ok_of_make h4) ops _ _ outs (.inl rfl) hr x hx
  obtain ⟨σ, σ', xs, mask, h1, h2, h3, h5⟩ := mask_of_flow w c fuel hw hns f32 R a m hm s0 ops outs s hr x hx
  obtain ⟨g1, g2, _, g4, g5, _, e⟩ := Sampler.Cfg.make_ok h4
  have hF : (m.cfg.ffpb : Int) = a.ffpb := by
    rw [e]
    show ((a.ffpb.toNat : Nat) : Int) = _
    omega
  have hlen : x.images.length = m.cfg.batchSize := hb.1
  have hle : m.cfg.ffpb ≤ m.cfg.batchSize := by omega
  have hlt : m.cfg.batchSize < a.spec.batchSize + a.ndevices := by
    rw [e]
    show Sampler.roundUp (a.spec.batchSize : Int).toNat a.ndevices < _
    rw [Int.toNat_natCast]
    unfold Sampler.roundUp
    split
    · have := Nat.div_add_mod a.spec.batchSize a.ndevices
      have : 0 < a.spec.batchSize % a.ndevices := by omega
      nlinarith
    · omega
  rw [hlen]
  refine ⟨mask, h2, by omega, ⟨fun hall => ?_, fun he i hi => by omega⟩, fun hne => ⟨by omega, ?_, ?_⟩, c2, c3, hlt⟩
  · have := hall (m.cfg.batchSize - 1) (by omega)
    omega
  · rw [List.getElem?_eq_none_iff]
    omega
  · rw [Ne, List.getElem?_eq_none_iff]
    omega

/-- The batch of `C90_refuted` has two entries for four pairs. -/
example : make id id demo = .ok demoMade ∧ demo.ffpb = 2 ∧ demo.spec.batchSize = 3 ∧ demo.ndevices = 2 ∧
    ∃ q, Sampler.run (Sampler.ofPlain (fieldSched demoWorld ⟨false, false⟩ 9)) (gen id id Generate.demoRand demo demoMade)
      demoMade.cfg [.next] (Sampler.init demoMade.cfg (Base.init demoWorld ⟨false, false⟩ ["p"] (.seed 0))) = some q ∧ q.1.map labels = [(some [true, false], some ["p", ""], 4)] := by
  obtain ⟨q, h1, h2⟩ := Option.map_eq_some_iff.1 C90_refuted.2.1
  exact ⟨C90_refuted.1, rfl, rfl, rfl, q, h1, h2⟩

end Verif.Synthetic
