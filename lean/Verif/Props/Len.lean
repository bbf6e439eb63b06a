import Verif.Model.Len
import Verif.Props.Base
import Verif.Props.Episodic
import Verif.Props.StepsExactly
/-!
# C193: what `len(scheduler)` says
-/

namespace Verif.Len
open Verif Base
variable {V D Key : Type}

private theorem shuffles_length {w : World V D Key} {cfg : Cfg} (hp : cfg.randomize = true → PermOK w) :
    ∀ (k : Nat) (x : List String × Key), (shuffles w cfg x k).1.length = x.1.length
  | 0, _ => rfl
  | k + 1, _ => (shuffles_length hp k _).trans (shuffle_perm hp _ _).length_eq

/-- **C193**, file schedulers: after every history of requests and resets `len()` is the number of files found at construction. -/
theorem C193_constant (zero : V) (w : World V D Key) (cfg : Cfg) (hp : cfg.randomize = true → PermOK w) (fl : List String) (key : Key)
    (fuel : Nat) (ops : List Op) (s : St D Key) (h : runOps zero w cfg fuel ops (init w cfg fl key) = some s) :
    base s = fl.length := by
  obtain ⟨k, hk⟩ := init_later h
  have := shuffles_length hp (k + 1) (fl, key)
  rw [← hk] at this
  exact this

example : ∃ s, runOps 0 Demo.world ⟨false, true⟩ 9 [.getBatch 1, .reset, .getBatch 2] (init Demo.world ⟨false, true⟩ ["a", "b"] (.seed 0)) = some s ∧
    base s = 2 := ⟨_, rfl, rfl⟩

/-- **C193**, one pass: a scheduler that does not loop, whose files are all different, delivers as many flow fields as the files have,
if it is asked for enough; this is `len()` if and only if the files have, on average, one each. -/
theorem C193_pass (zero : V) (w : World V D Key) (cfg : Cfg) (hloop : cfg.loop = false) (hp : cfg.randomize = true → PermOK w)
    (fl : List String) (key : Key) (hnd : fl.Nodup) (c : String → List (Sample V)) (hy : ∀ p ∈ fl, Yields w p (c p))
    {fsh o1 o2 named} (hu : Uniform (fl.flatMap c) fsh o1 o2 named) (ns : List Nat) (fuel : Nat) (hf : fl.length < fuel)
    (henough : (fl.map (fun p => (c p).length)).sum ≤ ns.sum) :
    ∃ outs s', runBatches zero w cfg fuel ns (init w cfg fl key) = some (outs, s') ∧
      (outs.flatMap delivered).length = (fl.map (fun p => (c p).length)).sum ∧
      ((outs.flatMap delivered).length = base (init w cfg fl key) ↔ (fl.map (fun p => (c p).length)).sum = fl.length) := by
  have hperm : (passOrder w cfg fl key 0).Perm fl := by
    have h := shuffle_perm hp fl key
    have hfl : (init w cfg fl key : St D Key).fileList = passOrder w cfg fl key 0 := shuffles_order w cfg fl key 0
    rw [← hfl]
    exact h
  have hchain : List.IsChain (· ≠ ·) (passOrder w cfg fl key 0) := by
    have hn : (passOrder w cfg fl key 0).Nodup := hperm.nodup_iff.mpr hnd
    exact List.Pairwise.isChain hn
  obtain ⟨outs, s', h1, h2⟩ := C01_every_slice_once_partial zero w cfg hloop hp fl key c hy hu hchain ns fuel hf
  have hlen : (outs.flatMap delivered).length = (fl.map (fun p => (c p).length)).sum := by
    rw [h2, List.length_map, List.length_take, List.length_flatMap, (hperm.map (fun p => (c p).length)).sum_nat]
    omega
  refine ⟨outs, s', h1, hlen, ?_⟩
  rw [hlen]
  have : base (init w cfg fl key : St D Key) = fl.length := (shuffle_perm hp fl key).length_eq
  rw [this]

/-- **C193** for formats with one flow field per file (MAT, NumPy), all of them readable: one pass has exactly `len()` flow fields. -/
theorem C193_samples_partial (zero : V) (w : World V D Key) (cfg : Cfg) (hloop : cfg.loop = false) (hp : cfg.randomize = true → PermOK w)
    (fl : List String) (key : Key) (hnd : fl.Nodup) (x : String → Sample V) (hy : ∀ p ∈ fl, Yields w p [x p])
    {fsh o1 o2 named} (hu : Uniform (fl.map x) fsh o1 o2 named) (ns : List Nat) (fuel : Nat) (hf : fl.length < fuel)
    (henough : fl.length ≤ ns.sum) :
    ∃ outs s', runBatches zero w cfg fuel ns (init w cfg fl key) = some (outs, s') ∧
      (outs.flatMap delivered).length = base (init w cfg fl key) := by
  have hs : (fl.map (fun p => [x p].length)).sum = fl.length := by simp
  obtain ⟨outs, s', h1, _, h3⟩ := C193_pass zero w cfg hloop hp fl key hnd (fun p => [x p]) hy
    (by rw [← List.map_eq_flatMap]; exact hu) ns fuel hf (by rw [hs]; exact henough)
  exact ⟨outs, s', h1, h3.mpr hs⟩

/-- The hypotheses are met by one file. -/
example : ∃ outs s', runBatches 0 Demo.world ⟨false, false⟩ 3 [1, 1] (init Demo.world ⟨false, false⟩ ["b"] (.seed 0)) = some (outs, s') ∧
    (outs.flatMap delivered).length = base (init Demo.world ⟨false, false⟩ ["b"] (.seed 0)) :=
  C193_samples_partial 0 Demo.world ⟨false, false⟩ rfl (fun _ => Demo.world_perm) ["b"] (.seed 0) (by simp) (fun _ => Demo.sample "b" 3)
    (fun p hp => by
      have : p = "b" := by simpa using hp
      subst this
      exact Demo.world_yields "b" (by decide))
    (Demo.world_uniform ["b"]) [1, 1] 3 (by decide) (by decide)

/-- With an unreadable file and one with two flow fields the pass has as many flow fields as there are files. -/
example : ∃ outs s', runBatches 0 Demo.world ⟨false, false⟩ 3 [1, 5] (init Demo.world ⟨false, false⟩ ["a", "x"] (.seed 0)) = some (outs, s') ∧
    (outs.flatMap delivered).length = 2 := by
  obtain ⟨outs, s', h1, h2, _⟩ := C193_pass 0 Demo.world ⟨false, false⟩ rfl (fun _ => Demo.world_perm) ["a", "x"] (.seed 0) (by simp)
    Demo.contents (fun p hp => Demo.world_yields p (by rintro rfl; revert hp; decide)) (Demo.world_uniform _) [1, 5] 3 (by decide) (by decide)
  exact ⟨outs, s', h1, h2⟩

/-- **C193** is false for files with several flow fields (HDF5): `len()` is 1, and a pass has two. -/
theorem C193_refuted : ∃ outs s', runBatches 0 Demo.world ⟨false, false⟩ 3 [2] (init Demo.world ⟨false, false⟩ ["a"] (.seed 0)) = some (outs, s') ∧
    (outs.flatMap delivered).length = 2 ∧ base (init Demo.world ⟨false, false⟩ ["a"] (.seed 0)) = 1 := ⟨_, _, rfl, rfl, rfl⟩

/-- **C193**, episodic schedulers: `len()` is `episode_length`, the one given to the constructor; it is positive, and after every history there
are `steps_remaining()` between 0 and `len()`, namely `len()` less the requests since the episodes began. -/
theorem C193_episodic {S B EKey : Type} (sch : Sched S B) (rng : Episodic.Rng EKey) (hc : Episodic.ChoiceOK rng) (os : LeafDirs.OS)
    (glob : String → List String) (bs el : Option Int) (inner : S) (key : EKey) (cfg : Episodic.Cfg) (e0 : Episodic.St S EKey)
    (h : Episodic.init sch rng os glob bs el inner key = .ok (cfg, e0)) (ops : List Episodic.Op) (outs : List (Episodic.Out B))
    (e : Episodic.St S EKey) (hr : Episodic.run sch rng cfg ops e0 = some (outs, e)) :
    el = some (episodic cfg : Int) ∧ 0 < episodic cfg ∧ 0 ≤ Episodic.stepsRemaining cfg e ∧ Episodic.stepsRemaining cfg e ≤ episodic cfg ∧
      Episodic.stepsRemaining cfg e = episodic cfg - Episodic.askedSince cfg.batchSize (episodic cfg) ops 0 ∧
      (Episodic.stepsRemaining cfg e = 0 ↔ Episodic.askedSince cfg.batchSize (episodic cfg) ops 0 = episodic cfg) := by
  obtain ⟨dirs, hd, ok, hb, hl, hs⟩ := Episodic.init_ok h
  obtain ⟨h1, h2, _⟩ := Episodic.C23_exactly sch rng hc os glob bs el inner key cfg e0 h ops outs e hr _ rfl
  unfold episodic
  refine ⟨hl, ok.lpos, ?_, ?_, h2, ?_⟩ <;> rw [h2] <;> omega

/-- **C193**: an episodic scheduler changes the `len()` of the scheduler it wraps: it is, after every history, the number of steps times the
number of episodes, whatever the number of files was. -/
theorem C193_wrapped {EKey : Type} (zero : V) (w : World V D Key) (bcfg : Cfg) (hrand : bcfg.randomize = false) (fuel : Nat)
    (rng : Episodic.Rng EKey) (hc : Episodic.ChoiceOK rng) (os : LeafDirs.OS)
    (glob : String → List String) (bs el : Option Int) (inner : St D Key) (key : EKey) (cfg : Episodic.Cfg)
    (e0 : Episodic.St (St D Key) EKey) (h : Episodic.init (Base.sched zero w bcfg fuel) rng os glob bs el inner key = .ok (cfg, e0))
    (ops : List Episodic.Op) (outs : List (Episodic.Out (Batch V))) (e : Episodic.St (St D Key) EKey)
    (hr : Episodic.run (Base.sched zero w bcfg fuel) rng cfg ops e0 = some (outs, e)) :
    base e.inner = episodic cfg * cfg.batchSize := by
  obtain ⟨dirs, eps, _, hlen, _, hside⟩ := Episodic.C21_contiguous_windows (Base.sched zero w bcfg fuel)
    (Episodic.base_keepsFiles zero w bcfg hrand fuel) rng hc os glob bs el inner key cfg e0 h ops outs e hr
  rw [← hlen]
  exact hside.1

/-- A history of an episodic scheduler with two episodes of two steps, over a list of two files: the wrapped scheduler has a `len()` of 4. -/
example : ∃ cfg e0 outs e,
    Episodic.init (Episodic.demoSched false) (Episodic.demoRng [0, 3]) Episodic.demoOS Episodic.demoGlob (some 2) (some 2)
      (Episodic.demoInner false ["d0", "e0"]) (.seed 1) = .ok (cfg, e0) ∧
    Episodic.run (Episodic.demoSched false) (Episodic.demoRng [0, 3]) cfg [.getBatch 2, .getBatch 5, .restart, .getBatch 2] e0 = some (outs, e) ∧
    Episodic.stepsRemaining cfg e = 1 ∧ episodic cfg = 2 ∧ base e.inner = 4 ∧ base (Episodic.demoInner false ["d0", "e0"]) = 2 :=
  ⟨_, _, _, _, rfl, rfl, by decide +kernel, by decide +kernel, by decide +kernel, by decide +kernel⟩

/-- **C193**: a prefetching scheduler has no `len()`, whatever it wraps. -/
theorem C193_refuted_prefetching {EKey : Type} (inner : Built D Key EKey) :
    len (.prefetching inner) = .error .typeError ∧ ¬ ∃ n, len (.prefetching inner) = .ok n := ⟨rfl, by rintro ⟨n, h⟩; cases h⟩

end Verif.Len
