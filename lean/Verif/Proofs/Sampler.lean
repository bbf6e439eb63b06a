import Verif.Spec.Sampler
import Verif.Proofs.ArrIx
import Mathlib.Data.List.Nodup
import Mathlib.Data.Nat.Init
import Mathlib.Tactic.Ring
/-!
# Lemmas about the samplers
-/

namespace Verif.Sampler
open Verif
variable {S B F O I A : Type}

/-! ## Tiling and sharding -/

theorem length_flatten_replicate {α : Type} (l : List α) (r : Nat) : ((List.replicate r l).flatten).length = r * l.length := by
  induction r with
  | zero => simp
  | succ r ih => rw [List.replicate_succ, List.flatten_cons, List.length_append, ih]; ring

theorem getElem?_flatten_replicate {α : Type} (l : List α) : ∀ (r i : Nat), i < r * l.length →
    ((List.replicate r l).flatten)[i]? = l[i % l.length]?
  | 0, i, h => by simp at h
  | r + 1, i, h => by
    rw [List.replicate_succ, List.flatten_cons]
    by_cases hi : i < l.length
    · rw [List.getElem?_append_left hi, Nat.mod_eq_of_lt hi]
    · have hp : 0 < l.length := by
        rcases Nat.eq_zero_or_pos l.length with h0 | h0
        · rw [h0] at h; simp at h
        · exact h0
      rw [List.getElem?_append_right (by omega), getElem?_flatten_replicate l r (i - l.length)
        (by rw [Nat.add_mul] at h; omega), ← Nat.mod_eq_sub_mod (by omega)]

theorem ceil_mul_ge (b n : Nat) (hn : 0 < n) : b ≤ (b + n - 1) / n * n := by
  have h1 := Nat.div_add_mod (b + n - 1) n
  have h2 := Nat.mod_lt (b + n - 1) hn
  rw [Nat.mul_comm] at h1
  omega

theorem tiled_length {α : Type} (b : Nat) (l : List α) (hl : 0 < l.length) : (tiled b l).length = b := by
  unfold tiled
  rw [List.length_take, length_flatten_replicate]
  have := ceil_mul_ge b l.length hl
  omega

theorem tiled_getElem? {α : Type} (b : Nat) (l : List α) (hl : 0 < l.length) (i : Nat) (hi : i < b) :
    (tiled b l)[i]? = l[i % l.length]? := by
  unfold tiled
  rw [List.getElem?_take_of_lt hi, getElem?_flatten_replicate]
  have := ceil_mul_ge b l.length hl
  omega

theorem length_flatMap_const {α β : Type} (f : α → List β) (m : Nat) : ∀ l : List α, (∀ x ∈ l, (f x).length = m) →
    (l.flatMap f).length = l.length * m
  | [], _ => by simp
  | x :: l, h => by
    rw [List.flatMap_cons, List.length_append, h x (by simp),
      length_flatMap_const f m l (fun y hy => h y (List.mem_cons_of_mem _ hy)), List.length_cons]
    ring

theorem filterMap_total {α β : Type} (f : α → Option β) (l : List α) (h : ∀ x ∈ l, (f x).isSome) :
    (l.filterMap f).length = l.length ∧ ∀ i : Nat, (l.filterMap f)[i]? = l[i]?.bind f := by
  induction l with
  | nil => simp
  | cons x l ih =>
    obtain ⟨y, hy⟩ := Option.isSome_iff_exists.mp (h x (by simp))
    obtain ⟨h1, h2⟩ := ih (fun z hz => h z (List.mem_cons_of_mem _ hz))
    rw [List.filterMap_cons_some hy]
    refine ⟨by simp [h1], fun i => ?_⟩
    cases i with
    | zero => simp [hy]
    | succ i => simpa using h2 i

theorem deviceImages_length (g : Gen F O I) (b : Nat) (k : KeyTerm) (fs : List F) (hf : 0 < fs.length) :
    (deviceImages g b k fs).length = b ∧
    ∀ i, i < b → (deviceImages g b k fs)[i]? = fs[i % fs.length]?.map (g.render k b i) := by
  have := filterMap_total (fun i => (fs[i % fs.length]?).map (g.render k b i)) (List.range b) (by
    intro i _
    have : i % fs.length < fs.length := Nat.mod_lt _ hf
    simp [this])
  unfold deviceImages
  refine ⟨by rw [this.1, List.length_range], fun i hi => ?_⟩
  rw [this.2, List.getElem?_range hi]
  rfl

theorem shards_length {α : Type} (d : Nat) (l : List α) : (shards d l).length = d := by simp [shards]

theorem shards_get {α : Type} (d : Nat) (l : List α) (j : Nat) (hj : j < d) :
    (shards d l)[j]? = some ((l.drop (j * (l.length / d))).take (l.length / d)) := by
  unfold shards
  rw [List.getElem?_map, List.getElem?_range hj]
  rfl

theorem shard_block {α : Type} (d : Nat) (l : List α) (hdvd : l.length % d = 0) (j : Nat) (hj : j < d) :
    ((l.drop (j * (l.length / d))).take (l.length / d)).length = l.length / d ∧
    ∀ i, i < l.length / d → ((l.drop (j * (l.length / d))).take (l.length / d))[i]? = l[j * (l.length / d) + i]? := by
  have hm : d * (l.length / d) = l.length := Nat.mul_div_cancel' (Nat.dvd_of_mod_eq_zero hdvd)
  have hle : (j + 1) * (l.length / d) ≤ d * (l.length / d) := Nat.mul_le_mul_right _ hj
  rw [Nat.add_mul, Nat.one_mul, hm] at hle
  refine ⟨by rw [List.length_take, List.length_drop]; omega, fun i hi => ?_⟩
  rw [List.getElem?_take_of_lt hi, List.getElem?_drop]

theorem block_index {b d i : Nat} (_hd : 0 < d) (hb : b % d = 0) (hi : i < b) :
    i / (b / d) < d ∧ i % (b / d) < b / d ∧ i = (i / (b / d)) * (b / d) + i % (b / d) := by
  have hm : d * (b / d) = b := Nat.mul_div_cancel' (Nat.dvd_of_mod_eq_zero hb)
  have hpos : 0 < b / d := by
    rcases Nat.eq_zero_or_pos (b / d) with h | h
    · rw [h] at hm; omega
    · exact h
  refine ⟨(Nat.div_lt_iff_lt_mul hpos).mpr (by omega), Nat.mod_lt _ hpos, ?_⟩
  have := Nat.div_add_mod i (b / d)
  rw [Nat.mul_comm] at this
  omega

theorem flowOf_lt {b d n i : Nat} (hd : 0 < d) (hb : b % d = 0) (hn : n % d = 0) (hn0 : 0 < n) (hi : i < b) :
    flowOf b d n i < n := by
  obtain ⟨h1, _, _⟩ := block_index hd hb hi
  have hm : d * (n / d) = n := Nat.mul_div_cancel' (Nat.dvd_of_mod_eq_zero hn)
  have hpos : 0 < n / d := by
    rcases Nat.eq_zero_or_pos (n / d) with h | h
    · rw [h] at hm; omega
    · exact h
  have h2 := Nat.mod_lt (i % (b / d)) hpos
  have hle : (i / (b / d) + 1) * (n / d) ≤ d * (n / d) := Nat.mul_le_mul_right _ h1
  rw [Nat.add_mul, Nat.one_mul, hm] at hle
  unfold flowOf
  omega

theorem shardLen_pos {d n : Nat} (hn : n % d = 0) (hn0 : 0 < n) : 0 < n / d := by
  have hm : d * (n / d) = n := Nat.mul_div_cancel' (Nat.dvd_of_mod_eq_zero hn)
  rcases Nat.eq_zero_or_pos (n / d) with h | h
  · rw [h] at hm; omega
  · exact h

theorem images_get (g : Gen F O I) (cfg : Cfg) (k : KeyTerm) (fs : List F) (hd : 0 < cfg.ndevices)
    (hb : cfg.batchSize % cfg.ndevices = 0) (hn : fs.length % cfg.ndevices = 0) (hn0 : 0 < fs.length) :
    (images g cfg k fs).length = cfg.batchSize ∧ ∀ i, i < cfg.batchSize →
    (images g cfg k fs)[i]? = fs[flowOf cfg.batchSize cfg.ndevices fs.length i]?.map
      (g.render (.sub k cfg.ndevices (i / (cfg.batchSize / cfg.ndevices))) (cfg.batchSize / cfg.ndevices)
        (i % (cfg.batchSize / cfg.ndevices))) := by
  have hpos := shardLen_pos hn hn0
  have hblk : ∀ q ∈ ((List.range cfg.ndevices).map (fun j => KeyTerm.sub k cfg.ndevices j)).zip (shards cfg.ndevices fs),
      (deviceImages g (cfg.batchSize / cfg.ndevices) q.1 q.2).length = cfg.batchSize / cfg.ndevices := by
    intro q hq
    have := (List.of_mem_zip hq).2
    obtain ⟨j, hj⟩ := List.mem_iff_getElem?.mp this
    have hjd : j < cfg.ndevices := by
      obtain ⟨h, _⟩ := List.getElem?_eq_some_iff.mp hj
      rwa [shards_length] at h
    rw [shards_get _ _ _ hjd] at hj
    have hl := (shard_block cfg.ndevices fs hn j hjd).1
    rw [Option.some_inj.mp hj] at hl
    exact (deviceImages_length g _ q.1 q.2 (by omega)).1
  have hzl : (((List.range cfg.ndevices).map (fun j => KeyTerm.sub k cfg.ndevices j)).zip (shards cfg.ndevices fs)).length
      = cfg.ndevices := by simp [shards_length]
  constructor
  · unfold images
    rw [length_flatMap_const _ _ _ hblk, hzl]
    exact Nat.mul_div_cancel' (Nat.dvd_of_mod_eq_zero hb)
  · intro i hi
    obtain ⟨h1, h2, h3⟩ := block_index hd hb hi
    have hget := Arr.flatMap_block (fun q : KeyTerm × List F => deviceImages g (cfg.batchSize / cfg.ndevices) q.1 q.2)
      (cfg.batchSize / cfg.ndevices) _ hblk (i / (cfg.batchSize / cfg.ndevices)) (i % (cfg.batchSize / cfg.ndevices))
      (by rw [hzl]; exact h1) h2
    rw [← h3] at hget
    unfold images
    rw [hget]
    have hsh := shards_get cfg.ndevices fs _ h1
    have hz : (((List.range cfg.ndevices).map (fun j => KeyTerm.sub k cfg.ndevices j)).zip (shards cfg.ndevices fs))[i / (cfg.batchSize / cfg.ndevices)]'(by rw [hzl]; exact h1)
        = (KeyTerm.sub k cfg.ndevices (i / (cfg.batchSize / cfg.ndevices)),
           (fs.drop (i / (cfg.batchSize / cfg.ndevices) * (fs.length / cfg.ndevices))).take (fs.length / cfg.ndevices)) := by
      rw [List.getElem_zip]
      refine Prod.ext ?_ ?_
      · simp
      · obtain ⟨_, h⟩ := List.getElem?_eq_some_iff.mp hsh
        exact h
    rw [hz]
    obtain ⟨hl, hg⟩ := shard_block cfg.ndevices fs hn _ h1
    rw [(deviceImages_length g _ _ _ (by rw [hl]; exact hpos)).2 _ h2, hl, hg _ (Nat.mod_lt _ hpos)]
    rfl

theorem outFlows_get (g : Gen F O I) (cfg : Cfg) (fs : List F) (hd : 0 < cfg.ndevices)
    (hb : cfg.batchSize % cfg.ndevices = 0) (hn : fs.length % cfg.ndevices = 0) (hn0 : 0 < fs.length) :
    (adaptAll g cfg fs).1.length = cfg.batchSize ∧ ∀ i, i < cfg.batchSize →
    (adaptAll g cfg fs).1[i]? = fs[flowOf cfg.batchSize cfg.ndevices fs.length i]?.map (fun f => (g.adapt f).1) := by
  have hpos := shardLen_pos hn hn0
  have hblk : ∀ q ∈ shards cfg.ndevices fs,
      (tiled (cfg.batchSize / cfg.ndevices) (q.map (fun f => (g.adapt f).1))).length = cfg.batchSize / cfg.ndevices := by
    intro q hq
    obtain ⟨j, hj⟩ := List.mem_iff_getElem?.mp hq
    have hjd : j < cfg.ndevices := by
      obtain ⟨h, _⟩ := List.getElem?_eq_some_iff.mp hj
      rwa [shards_length] at h
    rw [shards_get _ _ _ hjd] at hj
    have hl := (shard_block cfg.ndevices fs hn j hjd).1
    rw [Option.some_inj.mp hj] at hl
    exact tiled_length _ _ (by rw [List.length_map]; omega)
  constructor
  · unfold adaptAll
    simp only
    rw [length_flatMap_const _ _ _ hblk, shards_length]
    exact Nat.mul_div_cancel' (Nat.dvd_of_mod_eq_zero hb)
  · intro i hi
    obtain ⟨h1, h2, h3⟩ := block_index hd hb hi
    have hget := Arr.flatMap_block (fun fs : List F => tiled (cfg.batchSize / cfg.ndevices) (fs.map (fun f => (g.adapt f).1)))
      (cfg.batchSize / cfg.ndevices) _ hblk (i / (cfg.batchSize / cfg.ndevices)) (i % (cfg.batchSize / cfg.ndevices))
      (by rw [shards_length]; exact h1) h2
    rw [← h3] at hget
    unfold adaptAll
    simp only
    rw [hget]
    obtain ⟨_, hsh⟩ := List.getElem?_eq_some_iff.mp (shards_get cfg.ndevices fs _ h1)
    rw [hsh]
    obtain ⟨hl, hg⟩ := shard_block cfg.ndevices fs hn _ h1
    rw [tiled_getElem? _ _ (by rw [List.length_map]; omega) _ h2, List.length_map, hl, List.getElem?_map,
      hg _ (Nat.mod_lt _ hpos)]
    rfl

/-! ## Rounding -/

theorem roundUp_dvd (b d : Nat) : roundUp b d % d = 0 := by
  unfold roundUp
  by_cases h : b % d ≠ 0
  · rw [if_pos h, Nat.mul_mod_left]
  · rw [if_neg h]; omega

theorem roundUp_pos {b d : Nat} (hb : 0 < b) (hd : 0 < d) : 0 < roundUp b d := by
  unfold roundUp
  by_cases h : b % d ≠ 0
  · rw [if_pos h]; exact Nat.mul_pos (Nat.succ_pos _) hd
  · rw [if_neg h]; exact hb

theorem Cfg.make_ok {b : Int} {nd : Nat} {ep : Bool} {bpfb ffpb seed : Int} {cfg : Cfg}
    (h : Cfg.make b nd ep bpfb ffpb seed = .ok cfg) :
    0 < b ∧ 0 < nd ∧ 0 < bpfb ∧ 0 < ffpb ∧ ffpb ≤ b ∧ 0 ≤ seed ∧
    cfg = { batchSize := roundUp b.toNat nd, ndevices := nd,
            bpfb := if ep && bpfb != 1 then 1 else bpfb.toNat, ffpb := ffpb.toNat, seed := seed.toNat } := by
  unfold Cfg.make at h
  generalize (if ep && bpfb != 1 then 1 else bpfb.toNat) = x at h ⊢
  repeat' split at h
  all_goals try contradiction
  simp only [Except.ok.injEq] at h
  refine ⟨by omega, by omega, by omega, by omega, by omega, by omega, h.symm⟩

end Verif.Sampler
