import Verif.Props.Playlist
import Verif.Props.Base
/-!
# Property C187: episodes can be made of files of every format

The documentation allows "any scheduler" to be wrapped and names the one for HDF5 files as an example. The search for frames
is for `*.mat`, whatever the wrapped scheduler reads.
-/

namespace Verif.Episodic
open Verif
variable {S B Key V D K : Type}

/-- What `glob.glob(os.path.join(d, "*.mat"))` is relied upon for (episodic.py line 237): it finds the files of `d` with
that ending and no others. `holds d` lists the files in `d`. -/
def FindsMat (holds glob : String → List String) : Prop :=
  ∀ d f, f ∈ glob d ↔ f ∈ holds d ∧ f.endsWith ".mat" = true

/-- C187 for MAT files: with whole directories of them, each without subdirectories and with at least `episode_length`
frames, construction succeeds, and what may be played is what is listed. Missing: the other formats
(`C187_refuted`, `C187_refuted_mixed`). -/
theorem C187_mat_partial (sch : Sched S B) (hk : KeepsFiles sch) (rng : Rng Key) (os : LeafDirs.OS)
    (hset : LeafDirs.SetIter os.iterSet) (holds glob : String → List String) (hg : FindsMat holds glob) (b l : Nat)
    (hb : 0 < b) (hl : 0 < l) (inner : S) (key : Key) (hne : sch.fileList inner ≠ [])
    (hleaf : ∀ p ∈ sch.fileList inner, IsLeaf os (os.parent p) ∧ p ∈ holds (os.parent p) ∧ p.endsWith ".mat" = true)
    (hwhole : ∀ p ∈ sch.fileList inner, ∀ f ∈ holds (os.parent p), f.endsWith ".mat" = true → f ∈ sch.fileList inner)
    (hlong : ∀ p ∈ sch.fileList inner, l ≤ (glob (os.parent p)).length) :
    (∃ r, init sch rng os glob (some b) (some l) inner key = .ok r) ∧
    ∀ f, MayBePlayed Key sch os glob b l inner f ↔ f ∈ sch.fileList inner := by
  have hdisc : ∃ dirs, LeafDirs.discover os false (sch.fileList inner) = .ok dirs := by
    have : ∀ ds : List String, (∀ d ∈ ds, IsLeaf os d) → ∃ r, LeafDirs.leaves os false ds = .ok r := by
      intro ds
      induction ds with
      | nil => exact fun _ => ⟨[], rfl⟩
      | cons d ds ih =>
        intro h
        obtain ⟨r, hr⟩ := ih (fun d hd => h d (List.mem_cons_of_mem _ hd))
        obtain ⟨es, h1, h2⟩ := h d List.mem_cons_self
        refine ⟨d :: r, ?_⟩
        have : es.any (LeafDirs.Entry.isDir false) = false := by
          rw [List.any_eq_false]
          intro x hx
          simp [h2 x hx]
        simp only [LeafDirs.leaves, h1, this, hr]
        rfl
    refine this _ (fun d hd => ?_)
    obtain ⟨p, hp, rfl⟩ := List.mem_map.mp (((hset _).2 d).mp hd)
    exact (hleaf p hp).1
  obtain ⟨dirs, hd⟩ := hdisc
  have hmem : ∀ d, d ∈ dirs ↔ ∃ p ∈ sch.fileList inner, os.parent p = d := by
    intro d
    rw [(LeafDirs.leaves_spec os false _ _ hd).2 d, (hset _).2, List.mem_map]
    constructor
    · exact fun h => h.1
    · rintro ⟨p, hp, rfl⟩; exact ⟨⟨p, hp, rfl⟩, (hleaf p hp).1⟩
  have hmade := (C20_construction_iff sch rng os glob (some b) (some l) inner key dirs hd).1.mpr
    ⟨b, l, rfl, rfl, by omega, by omega, by
      obtain ⟨p, hp⟩ := List.exists_mem_of_ne_nil _ hne
      exact List.ne_nil_of_mem ((hmem _).mpr ⟨p, hp, rfl⟩), by
      intro d hdm
      obtain ⟨p, hp, rfl⟩ := (hmem d).mp hdm
      have := hlong p hp
      omega⟩
  refine ⟨hmade, fun f => ?_⟩
  obtain ⟨⟨cfg, e0⟩, hi⟩ := hmade
  refine C186_playlist_partial sch hk os hset glob b l inner ⟨rng, key, cfg, e0, hi⟩ ?_ ?_ f
  · intro p hp _ f hf
    obtain ⟨h1, h2⟩ := (hg _ _).mp hf
    exact hwhole p hp f h1 h2
  · intro f hf
    obtain ⟨h1, h2, h3⟩ := hleaf f hf
    exact ⟨f, hf, h1, (hg _ _).mpr ⟨h2, h3⟩⟩

/-- C187 is false for every other format: if the directories of the listed files hold no `.mat` file, construction raises
`ValueError` for every scheduler, generator, batch size and episode length, however many files there are. -/
theorem C187_refuted (sch : Sched S B) (rng : Rng Key) (os : LeafDirs.OS) (hset : LeafDirs.SetIter os.iterSet)
    (holds glob : String → List String) (hg : FindsMat holds glob) (bs el : Option Int) (inner : S) (key : Key)
    (dirs : List String) (hd : LeafDirs.discover os false (sch.fileList inner) = .ok dirs)
    (hno : ∀ p ∈ sch.fileList inner, ∀ f ∈ holds (os.parent p), f.endsWith ".mat" = false) :
    init sch rng os glob bs el inner key = .error .valueError := by
  obtain ⟨h1, h2⟩ := C20_construction_iff sch rng os glob bs el inner key dirs hd
  cases hi : init sch rng os glob bs el inner key with
  | error e => rw [h2 e hi]
  | ok r =>
    obtain ⟨b, l, _, _, _, hl, hne, hlen⟩ := h1.mp ⟨r, hi⟩
    obtain ⟨d, hdm⟩ := List.exists_mem_of_ne_nil _ hne
    have hd2 := ((LeafDirs.leaves_spec os false _ _ hd).2 d).mp hdm
    obtain ⟨p, hp, rfl⟩ := List.mem_map.mp (((hset _).2 d).mp hd2.1)
    have hnil : glob (os.parent p) = [] := by
      rw [List.eq_nil_iff_forall_not_mem]
      intro f hf
      obtain ⟨f1, f2⟩ := (hg _ _).mp hf
      rw [hno p hp f f1] at f2
      exact absurd f2 (by decide)
    have := hlen _ hdm
    rw [hnil] at this
    simp only [List.length_nil, Nat.cast_zero] at this
    omega

/-- C187 is false too if enough `.mat` files lie beside the listed ones: construction succeeds, the wrapped scheduler, which
cannot read them, is given these files only, and no batch ever comes: the first request raises `StopIteration`, or never
returns if the wrapped scheduler loops. -/
theorem C187_refuted_mixed (zero : V) (w : Base.World V D K) (c : Base.Cfg) (hr : c.randomize = false) (fuel : Nat)
    (rng : Rng Key) (hc : ChoiceOK rng) (os : LeafDirs.OS) (holds glob : String → List String) (hg : FindsMat holds glob)
    (b l : Nat) (inner : Base.St D K) (key : Key) (cfg : Cfg) (e0 : St (Base.St D K) Key)
    (h : init (Base.sched zero w c fuel) rng os glob (some b) (some l) inner key = .ok (cfg, e0))
    (hw : ∀ p, p.endsWith ".mat" = true → ∃ e, w.load p = .error e) (hf : 2 * (l * b) < fuel) :
    (∀ f ∈ (Base.sched zero w c fuel).fileList e0.inner, f.endsWith ".mat" = true) ∧
    (c.loop = false → ∃ e1, getBatch (Base.sched zero w c fuel) cfg b e0 = some (.error .stopIteration, e1)) ∧
    (c.loop = true → getBatch (Base.sched zero w c fuel) cfg b e0 = none) := by
  obtain ⟨dirs, hd, ok, hb, hl, hs⟩ := init_ok h
  have hb : b = cfg.batchSize := by simpa using hb
  have hl : l = cfg.episodeLength := by simpa using hl
  obtain ⟨eps, h1, h2, h3⟩ := sample_spec ok (Base.sched zero w c fuel) rng hc { inner := inner, t := 0, key := key }
  rw [h3] at hs
  simp only [Except.ok.injEq] at hs
  have hkeep := base_keepsFiles zero w c hr fuel
  have hlp := ok.lpos
  have hbp := ok.pos
  -- the queue
  let q := interleave cfg.episodeLength cfg.batchSize eps
  have hq : ∀ f ∈ q, f.endsWith ".mat" = true := by
    intro f hf
    have hlen : q.length = cfg.episodeLength * cfg.batchSize := interleave_length _ _ _
    obtain ⟨k, hk, rfl⟩ := List.getElem_of_mem hf
    have hsb := interleave_sideBySide (L := cfg.episodeLength) (eps := eps) (fun ep hep => (h2 ep hep).1)
    have hkd : k = k / cfg.batchSize * cfg.batchSize + k % cfg.batchSize := by
      have := Nat.div_add_mod k cfg.batchSize
      rw [Nat.mul_comm] at this; omega
    have hkm : k % cfg.batchSize < eps.length := by rw [h1]; exact Nat.mod_lt _ hbp
    have hkl : k / cfg.batchSize < cfg.episodeLength := by
      rw [Nat.div_lt_iff_lt_mul hbp]; omega
    have := hsb.2 (k / cfg.batchSize) (k % cfg.batchSize) hkm hkl
    rw [h1, ← hkd] at this
    have hq' : q[k]? = some q[k] := List.getElem?_eq_getElem hk
    have hep := h2 _ (List.getElem_mem hkm)
    rw [show (interleave cfg.episodeLength cfg.batchSize eps) = q from rfl, hq'] at this
    have hmem : q[k] ∈ eps[k % cfg.batchSize] := List.mem_of_getElem? this.symm
    obtain ⟨_, d, hdm, listing, hp, _, hin⟩ := hep
    exact ((hg _ _).mp (hp.mem_iff.mp (hin.subset hmem))).2
  have hinner : e0.inner = Base.init w c q inner.key := by rw [← hs]; rfl
  have ht : e0.t = 0 := by rw [← hs]
  have hy : ∀ p ∈ q, Base.Yields w p [] := by
    intro p hp
    obtain ⟨e, he⟩ := hw p (hq p hp)
    simp [Base.Yields, he]
  have hqne : q ≠ [] := by
    have hlen : q.length = cfg.episodeLength * cfg.batchSize := interleave_length _ _ _
    intro hnil
    rw [hnil] at hlen
    have : 0 < cfg.episodeLength * cfg.batchSize := Nat.mul_pos hlp hbp
    simp at hlen
    omega
  refine ⟨?_, ?_, ?_⟩
  · intro f hf
    rw [← hs] at hf
    dsimp only at hf
    rw [hkeep.reset, hkeep.set] at hf
    exact hq f hf
  · intro hloop
    have hfilt : q.filter (Base.loadable w) = [] := by
      rw [List.filter_eq_nil_iff]
      intro p hp
      obtain ⟨e, he⟩ := hw p (hq p hp)
      simp [Base.loadable, he, Except.isOk, Except.toBool]
    obtain ⟨outs, s1, s2, r1, r2⟩ := Base.C06_unreadable_skipped_partial zero w c hr q inner.key (fun _ => []) hy
      (by rw [hfilt]; simp) (by simp [hloop]) [b] (by simp; omega) fuel (by
        rw [show q.length = cfg.episodeLength * cfg.batchSize from interleave_length _ _ _, ← hb, ← hl]; exact hf)
    rw [hfilt] at r2
    obtain ⟨fuel', rfl⟩ : ∃ f, fuel = f + 1 := ⟨fuel - 1, by omega⟩
    obtain ⟨b', hb'⟩ : ∃ b', b = b' + 1 := ⟨b - 1, by omega⟩
    have hempty : Base.getBatch zero w c (fuel' + 1) b (Base.init w c [] inner.key) =
        some (.error .stopIteration, Base.init w c [] inner.key) := by
      rw [hb']
      simp [Base.getBatch, Base.collect, Base.getNext, Base.iter, Base.init, Base.shuffle, hr, hloop]
    simp only [Base.runBatches, hempty, Option.some.injEq, Prod.mk.injEq] at r2
    obtain ⟨rfl, rfl⟩ := r2
    simp only [Base.runBatches] at r1
    cases hgb : Base.getBatch zero w c (fuel' + 1) b (Base.init w c q inner.key) with
    | none => rw [hgb] at r1; simp at r1
    | some x =>
      obtain ⟨r, s⟩ := x
      rw [hgb] at r1
      simp only [Option.some.injEq, Prod.mk.injEq, List.cons.injEq, and_true] at r1
      refine ⟨{ e0 with t := e0.t + 1, inner := s }, ?_⟩
      simp only [getBatch, hb, ne_eq, not_true_eq_false, if_false, ht, hinner]
      rw [if_neg (by omega)]
      simp only [Base.sched]
      rw [← hb, hgb, r1.1]
  · intro hloop
    have := Base.C05_refuted zero w c hloop (by simp [hr]) q hqne inner.key hy b (by omega) fuel
    simp only [getBatch, hb, ne_eq, not_true_eq_false, if_false, ht, hinner]
    rw [if_neg (by omega)]
    simp only [Base.sched]
    rw [← hb, this]

/-- A directory `d` in which the same three flow fields are stored in two formats, and another one, `e`, with HDF5 files only. -/
def twoFormats (d : String) : List String :=
  if d = "d" then ["d/0.h5", "d/0.mat", "d/1.h5", "d/1.mat", "d/2.h5", "d/2.mat"] else ["e/0.h5", "e/1.h5", "e/2.h5"]

/-- The search for `*.mat`. -/
def searchMat (d : String) : List String := (twoFormats d).filter (fun f => f.endsWith ".mat")

theorem searchMat_ok : FindsMat twoFormats searchMat := fun _ _ => List.mem_filter

/-- The directories `d` and `e`. -/
def twoOS : LeafDirs.OS where
  parent p := if p ∈ ["d/0.h5", "d/1.h5", "d/2.h5", "d/0.mat", "d/1.mat", "d/2.mat"] then "d" else "e"
  scan _ := .entries [.file, .file, .file]
  iterSet l := l.dedup

/-- A scheduler that reads everything but `.mat` files. -/
def h5Only : Base.World Nat Unit KeyTerm where
  load p := if p.endsWith ".mat" then .error .valueError else .ok ()
  slice p _ i := if i = 0 then .ok ⟨⟨[1, 1, 1], [7]⟩, none, none, some [p]⟩ else .ended
  split := KeyTerm.split2
  perm _ n := List.range n

/-- The hypotheses of `C187_refuted_mixed` are met: the three HDF5 files of `d` are listed. -/
example : (∀ p : String, p.endsWith ".mat" = true → ∃ e, h5Only.load p = .error e) ∧
    (match init (Base.sched 0 h5Only ⟨false, false⟩ 20) (demoRng [0, 1]) twoOS searchMat (some 2) (some 2)
      (Base.init h5Only ⟨false, false⟩ ["d/0.h5", "d/1.h5", "d/2.h5"] (.seed 0)) (.seed 1) with
      | .ok (_, e0) => some e0.inner.fileList
      | .error _ => none) = some ["d/0.mat", "d/1.mat", "d/1.mat", "d/2.mat"] := by
  refine ⟨fun p hp => ⟨.valueError, by simp [h5Only, hp]⟩, ?_⟩
  decide +kernel

/-- The hypotheses of `C187_refuted` are met: the three HDF5 files of `e` are listed. -/
example : LeafDirs.discover twoOS false ["e/0.h5", "e/1.h5", "e/2.h5"] = .ok ["e"] ∧
    ∀ p ∈ ["e/0.h5", "e/1.h5", "e/2.h5"], ∀ f ∈ twoFormats (twoOS.parent p), f.endsWith ".mat" = false := by
  decide +kernel

/-- The hypotheses of `C187_mat_partial` are met: the three MAT files of `d` are listed. -/
example : ∀ p ∈ ["d/0.mat", "d/1.mat", "d/2.mat"], (p ∈ twoFormats (twoOS.parent p) ∧ p.endsWith ".mat" = true) ∧
    (∀ f ∈ twoFormats (twoOS.parent p), f.endsWith ".mat" = true → f ∈ ["d/0.mat", "d/1.mat", "d/2.mat"]) ∧
    2 ≤ (searchMat (twoOS.parent p)).length := by
  decide +kernel

end Verif.Episodic
