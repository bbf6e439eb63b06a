import Verif.Props.Looks
import Verif.Props.Sampler
/-!
# The number of devices (C142)
-/

namespace Verif.Devices
open Verif Verif.Looks
variable {S F O I I' A : Type}

theorem shards_flatten {α : Type} {d c : Nat} (l : List α) (hl : l.length = d * c) (hd : 0 < d) : (Sampler.shards d l).flatten = l := by
  have key : ∀ (m : Nat) (l : List α), ((List.range m).map (fun j => (l.drop (j * c)).take c)).flatten = l.take (m * c) := by
    intro m
    induction m with
    | zero => intro l; simp
    | succ m ih =>
      intro l
      rw [List.range_succ, List.map_append, List.flatten_append, ih]
      simp only [List.map_cons, List.map_nil, List.flatten_cons, List.flatten_nil, List.append_nil]
      rw [Nat.succ_mul, List.take_add]
  unfold Sampler.shards
  rw [hl, Nat.mul_div_cancel_left _ hd, key d l, ← hl, List.take_length]

theorem shards_mem {α : Type} {d c : Nat} {l : List α} (hl : l.length = d * c) (hd : 0 < d) {x : List α} (hx : x ∈ Sampler.shards d l) : x.length = c := by
  unfold Sampler.shards at hx
  rw [hl, Nat.mul_div_cancel_left _ hd] at hx
  obtain ⟨j, hj, rfl⟩ := List.mem_map.mp hx
  have hj' : j < d := List.mem_range.mp hj
  have : (j + 1) * c ≤ d * c := Nat.mul_le_mul_right c hj'
  rw [List.length_take, List.length_drop, hl]
  rw [Nat.succ_mul] at this
  omega

theorem tiled_self {α : Type} (l : List α) : Sampler.tiled l.length l = l := by
  rcases Nat.eq_zero_or_pos l.length with h | h
  · rw [List.length_eq_zero_iff.mp h]; rfl
  · refine List.ext_getElem? (fun i => ?_)
    by_cases hi : i < l.length
    · rw [Sampler.tiled_getElem? _ _ h i hi, Nat.mod_eq_of_lt hi]
    · rw [List.getElem?_eq_none (by rw [Sampler.tiled_length _ _ h]; omega), List.getElem?_eq_none (by omega)]

theorem deviceImages_self (g : Sampler.Gen F O I) {φ : I → A} {ψ : F → A} (hφ : ∀ k b i f, φ (g.render k b i f) = ψ f) (k : KeyTerm) (l : List F) :
    (Sampler.deviceImages g l.length k l).map φ = l.map ψ := by
  unfold Sampler.deviceImages
  rw [List.map_filterMap]
  have : ∀ i ∈ List.range l.length, ((l[i % l.length]?).map (g.render k l.length i)).map φ = (l[i]?).map ψ := by
    intro i hi
    rw [Nat.mod_eq_of_lt (List.mem_range.mp hi), Option.map_map]
    congr 1
    funext f
    exact hφ _ _ _ _
  rw [List.filterMap_congr this]
  clear this
  induction l with
  | nil => rfl
  | cons a l ih =>
    rw [List.length_cons, List.range_succ_eq_map, List.filterMap_cons, List.filterMap_map]
    simp only [List.getElem?_cons_zero, Option.map_some, List.map_cons, List.cons.injEq, true_and]
    rw [← ih]
    rfl

/-- With as many flow fields as images on every device, flow fields and images correspond one to one. -/
theorem spread (g : Sampler.Gen F O I) {φ : I → A} {ψ : F → A} (hφ : ∀ k b i f, φ (g.render k b i f) = ψ f) {cfg : Sampler.Cfg} (hd : 0 < cfg.ndevices)
    (hdv : cfg.ndevices ∣ cfg.batchSize) (l : List F) (hl : l.length = cfg.batchSize) :
    Sampler.adaptAll g cfg l = (l.map (fun f => (g.adapt f).1), l.map (fun f => (g.adapt f).2)) ∧ ∀ k, (Sampler.images g cfg k l).map φ = l.map ψ := by
  obtain ⟨c, hc⟩ := hdv
  have hl' : l.length = cfg.ndevices * c := hl.trans hc
  have hq : cfg.batchSize / cfg.ndevices = c := by rw [hc, Nat.mul_div_cancel_left _ hd]
  have hs := shards_flatten l hl' hd
  constructor
  · unfold Sampler.adaptAll
    rw [hq]
    have : (Sampler.shards cfg.ndevices l).flatMap (fun fs => Sampler.tiled c (fs.map (fun f => (g.adapt f).1))) =
        (Sampler.shards cfg.ndevices l).flatMap (List.map (fun f => (g.adapt f).1)) := by
      refine List.flatMap_congr (fun x hx => ?_)
      have e : c = (x.map (fun f => (g.adapt f).1)).length := by rw [List.length_map, shards_mem hl' hd hx]
      conv_lhs => rw [e]
      exact tiled_self _
    rw [this, List.flatMap_def, ← List.map_flatten, hs]
  · intro k
    unfold Sampler.images
    rw [List.map_flatMap, hq]
    have : ∀ q ∈ ((List.range cfg.ndevices).map (fun j => KeyTerm.sub k cfg.ndevices j)).zip (Sampler.shards cfg.ndevices l),
        (Sampler.deviceImages g c q.1 q.2).map φ = (List.map ψ) q.2 := by
      intro q hq
      have hx := shards_mem hl' hd (List.of_mem_zip hq).2
      rw [← hx]
      exact deviceImages_self g hφ _ _
    rw [List.flatMap_congr this]
    have hlen : (Sampler.shards cfg.ndevices l).length ≤ ((List.range cfg.ndevices).map (fun j => KeyTerm.sub k cfg.ndevices j)).length := by
      rw [Sampler.shards_length]; simp
    have e2 : (((List.range cfg.ndevices).map (fun j => KeyTerm.sub k cfg.ndevices j)).zip (Sampler.shards cfg.ndevices l)).flatMap (fun q => List.map ψ q.2) =
        (Sampler.shards cfg.ndevices l).flatMap (List.map ψ) := by
      conv_rhs => rw [← List.map_snd_zip hlen, List.flatMap_map]
    rw [e2, List.flatMap_def, ← List.map_flatten, hs]

theorem roundUp_dvd {b d : Nat} (h : d ∣ b) : Sampler.roundUp b d = b := by
  unfold Sampler.roundUp
  rw [if_neg (by rw [Nat.mod_eq_zero_of_dvd h]; simp)]

/-- **C142** (partial). Two samplers with the same arguments but for seed and number of devices, both of which divide the batch size, with as many flow fields as images per
batch: on the same scheduler they show, over every history of calls, the same flow fields, masks, file names, flags and failures, and, image by image, the same as to whatever is
determined by the flow field that the image shows (`φ`). Missing: fewer flow fields than images (`C142_refuted`). -/
theorem C142_devices_partial {g g' : Sampler.Gen F O I} (hg : g'.adapt = g.adapt) {φ : I → A} {ψ : F → A} (hφ : ∀ k b i f, φ (g.render k b i f) = ψ f)
    (hφ' : ∀ k b i f, φ (g'.render k b i f) = ψ f) {b : Nat} {d d' : Nat} {ep : Bool} {bpfb seed seed' : Int} {cfg cfg' : Sampler.Cfg} (hd : d ∣ b) (hd' : d' ∣ b)
    (hc : Sampler.Cfg.make b d ep bpfb b seed = .ok cfg) (hc' : Sampler.Cfg.make b d' ep bpfb b seed' = .ok cfg') {sch : Sampler.ISched S (Sampler.FlowBatch F)}
    (hfull : Sampler.FullBatches sch) (s : S) (ops : List Sampler.Op) :
    (Sampler.run sch g' cfg' ops (Sampler.init cfg' s)).map (fun q => q.1.map (images φ)) =
      (Sampler.run sch g cfg ops (Sampler.init cfg s)).map (fun q => q.1.map (images φ)) := by
  obtain ⟨_, d0, _, _, _, _, rfl⟩ := Sampler.Cfg.make_ok hc
  obtain ⟨_, d0', _, _, _, _, rfl⟩ := Sampler.Cfg.make_ok hc'
  let e : Sampler.Gen F O A := ⟨g.adapt, fun _ _ _ f => ψ f⟩
  have hb : ((b : Int).toNat) = b := Int.toNat_natCast b
  simp only [hb, roundUp_dvd hd, roundUp_dvd hd']
  have sp := fun l hl => spread g hφ (cfg := ⟨b, d, if ep && bpfb != 1 then 1 else bpfb.toNat, b, seed.toNat⟩) d0 hd l hl
  have sp' := fun l hl => spread g' hφ' (cfg := ⟨b, d', if ep && bpfb != 1 then 1 else bpfb.toNat, b, seed'.toNat⟩) d0' hd' l hl
  have se := fun l hl => spread e (φ := id) (ψ := ψ) (fun _ _ _ _ => rfl) (cfg := ⟨b, d, if ep && bpfb != 1 then 1 else bpfb.toNat, b, seed.toNat⟩) d0 hd l hl
  have h1 : Sim ⟨b, d, if ep && bpfb != 1 then 1 else bpfb.toNat, b, seed.toNat⟩ ⟨b, d, if ep && bpfb != 1 then 1 else bpfb.toNat, b, seed.toNat⟩ φ g e (fun _ _ => True) (· = b) :=
    ⟨rfl, fun _ _ => Iff.rfl, rfl, rfl, trivial, fun l hl => by rw [(sp l hl).1, (se l hl).1], fun _ _ _ => trivial, fun k k' l _ hl => by
      rw [(sp l hl).2, ← (se l hl).2 k'.split2.2, List.map_id]⟩
  have h2 : Sim ⟨b, d', if ep && bpfb != 1 then 1 else bpfb.toNat, b, seed'.toNat⟩ ⟨b, d, if ep && bpfb != 1 then 1 else bpfb.toNat, b, seed.toNat⟩ φ g' e (fun _ _ => True) (· = b) :=
    ⟨rfl, fun n hn => by subst hn; simp [Nat.mod_eq_zero_of_dvd hd, Nat.mod_eq_zero_of_dvd hd'], rfl, rfl, trivial,
      fun l hl => by rw [(sp' l hl).1, (se l hl).1, hg], fun _ _ _ => trivial, fun k k' l _ hl => by
      rw [(sp' l hl).2, ← (se l hl).2 k'.split2.2, List.map_id]⟩
  exact (run_sim h2 (fun _ _ _ h => hfull _ _ _ _ h) ops (init_rel h2 s)).symm.trans (run_sim h1 (fun _ _ _ h => hfull _ _ _ _ h) ops (init_rel h1 s))

/-- **C142** for the synthetic sampler as constructed: another number of devices changes nothing but the images. -/
theorem C142_synthetic_partial (fl fl32 : ℚ → ℚ) (R R' : Generate.Rand ℚ) (a : Synthetic.Args) (d' : Nat) {m m' : Synthetic.Made} (hm : Synthetic.make fl fl32 a = .ok m)
    (hm' : Synthetic.make fl fl32 { a with ndevices := d' } = .ok m') (hf : a.ffpb = a.spec.batchSize) (hd : a.ndevices ∣ a.spec.batchSize) (hd' : d' ∣ a.spec.batchSize)
    {sch : Sampler.ISched S (Sampler.FlowBatch (Adapter.Field2 ℚ))} (hfull : Sampler.FullBatches sch) (s : S) (ops : List Sampler.Op) :
    (Sampler.run sch (Synthetic.gen fl fl32 R' { a with ndevices := d' } m') m'.cfg ops (Sampler.init m'.cfg s)).map (fun q => q.1.map apartFromImages) =
      (Sampler.run sch (Synthetic.gen fl fl32 R a m) m.cfg ops (Sampler.init m.cfg s)).map (fun q => q.1.map apartFromImages) := by
  obtain ⟨_, _, _, hc, _, _, hp, hg, ho⟩ := Synthetic.make_ok hm
  obtain ⟨_, _, _, hc', _, _, hp', hg', ho'⟩ := Synthetic.make_ok hm'
  have eg : m'.geo = m.geo := by
    have : Geometry.build fl fl32 a.geometry = .ok m'.geo := hg'
    rw [hg] at this
    exact (Except.ok.inj this).symm
  have ep : m'.pixels = m.pixels := by
    have : a.pixels = some m'.pixels := hp'
    rw [hp] at this
    exact (Option.some.inj this).symm
  have eo : m'.outShape = m.outShape := by rw [ho, ho']
  rw [hf] at hc
  have hc'' : Sampler.Cfg.make a.spec.batchSize d' a.isEpisodic a.bpfb a.ffpb a.seed = .ok m'.cfg := hc'
  rw [hf] at hc''
  refine C142_devices_partial ?_ (φ := fun _ => ()) (ψ := fun _ => ()) (fun _ _ _ _ => rfl) (fun _ _ _ _ => rfl) hd hd' hc hc'' hfull s ops
  funext f
  show Adapter.processSingle fl (Adapter.ofGeo a.geometry m'.geo m'.outShape (m'.cfg.batchSize / m'.cfg.ndevices) m'.pixels) f =
    Adapter.processSingle fl (Adapter.ofGeo a.geometry m.geo m.outShape (m.cfg.batchSize / m.cfg.ndevices) m.pixels) f
  rw [eg, ep, eo]
  rfl

/-- **C142 is false** with fewer flow fields than images: eight images of four flow fields come in another order on two devices than on one. -/
theorem C142_refuted : ∃ cfg cfg', Sampler.Cfg.make 8 1 false 1 4 0 = .ok cfg ∧ Sampler.Cfg.make 8 2 false 1 4 0 = .ok cfg' ∧
    (Sampler.next Sampler.demoSched Sampler.demoGen cfg (Sampler.init cfg 0)).map (fun q => q.1.map (fun x => x.flows)) = some (.ok [0, 1, 2, 3, 0, 1, 2, 3]) ∧
    (Sampler.next Sampler.demoSched Sampler.demoGen cfg' (Sampler.init cfg' 0)).map (fun q => q.1.map (fun x => x.flows)) = some (.ok [0, 1, 0, 1, 2, 3, 2, 3]) :=
  ⟨_, _, rfl, rfl, by decide, by decide⟩

/-- Four flow fields on one device and on two: image `i` shows flow field `i` in both cases. -/
example : Sampler.FullBatches Sampler.demoSched ∧ (1 : Nat) ∣ 4 ∧ 2 ∣ 4 ∧ ∃ cfg cfg', Sampler.Cfg.make 4 1 false 1 4 0 = .ok cfg ∧ Sampler.Cfg.make 4 2 false 1 4 9 = .ok cfg' ∧
    (Sampler.next Sampler.demoSched Sampler.demoGen cfg (Sampler.init cfg 0)).map (fun q => q.1.map (fun x => (x.flows, x.images.map Prod.fst))) =
      some (.ok ([0, 1, 2, 3], [100, 101, 102, 103])) ∧
    (Sampler.next Sampler.demoSched Sampler.demoGen cfg' (Sampler.init cfg' 0)).map (fun q => q.1.map (fun x => (x.flows, x.images.map Prod.fst))) =
      some (.ok ([0, 1, 2, 3], [100, 101, 102, 103])) := by
  refine ⟨?_, by decide, by decide, _, _, rfl, rfl, by decide, by decide⟩
  intro n s b s' h
  simp only [Sampler.demoSched, Option.some.injEq] at h
  split at h
  · cases h; simp
  · simp at h

end Verif.Devices
