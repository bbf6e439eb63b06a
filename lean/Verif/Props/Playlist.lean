import Verif.Spec.Playlist
import Verif.Props.Distinct
/-!
# Property C186: episodes consist of the files of the list

The episodic scheduler takes from the list it is given only the names of the directories, and plays what it finds there.
-/

namespace Verif.Episodic
open Verif
variable {S B Key : Type}

/-- A frame of a directory that is long enough lies in an admissible window. -/
private theorem window_covers {glob dirs cfg} (h : CfgOK glob dirs cfg) {d f : String} (hd : d ∈ dirs) (hf : f ∈ glob d) :
    ∃ q ∈ cfg.starts, f ∈ window cfg q := by
  have hm : f ∈ (glob d).insertionSort (· ≤ ·) := (List.perm_insertionSort _ _).mem_iff.mpr hf
  obtain ⟨k, hk, rfl⟩ := List.getElem_of_mem hm
  have hlen := h.enough d hd
  have hl := h.lpos
  have hk' : k < (glob d).length := by rwa [List.length_insertionSort] at hk
  refine ⟨(d, min k ((glob d).length - cfg.episodeLength)), (mem_starts h _ _).mpr ⟨hd, by omega⟩, ?_⟩
  simp only [window, h.d2f, lookup_filesOf glob dirs d hd, Option.getD_some]
  refine List.mem_iff_getElem?.mpr ⟨k - min k ((glob d).length - cfg.episodeLength), ?_⟩
  rw [List.getElem?_take_of_lt (by omega), List.getElem?_drop,
    show min k ((glob d).length - cfg.episodeLength) + (k - min k ((glob d).length - cfg.episodeLength)) = k by omega,
    List.getElem?_eq_getElem hk]

private theorem cfg_eq {glob dirs} {c c' : Cfg} (h : CfgOK glob dirs c) (h' : CfgOK glob dirs c')
    (hb : c.batchSize = c'.batchSize) (hl : c.episodeLength = c'.episodeLength) : c = c' := by
  have e1 : c.dir2files = c'.dir2files := h.d2f.trans h'.d2f.symm
  have e2 : c.starts = c'.starts := by rw [h.starts, h'.starts, hl, e1]
  cases c; cases c'
  simp_all

private theorem mem_interleave {L : Nat} {eps : List (List String)} (hlen : ∀ ep ∈ eps, ep.length = L) (f : String) :
    f ∈ interleave L eps.length eps ↔ ∃ ep ∈ eps, f ∈ ep := by
  simp only [interleave, List.mem_flatMap, List.mem_range, List.mem_map]
  constructor
  · rintro ⟨t, ht, e, he, rfl⟩
    refine ⟨eps[e], List.getElem_mem he, ?_⟩
    have hl := hlen _ (List.getElem_mem he)
    rw [List.getD_eq_getElem?_getD (l := eps), List.getElem?_eq_getElem he, Option.getD_some,
      List.getD_eq_getElem?_getD, List.getElem?_eq_getElem (by omega), Option.getD_some]
    exact List.getElem_mem _
  · rintro ⟨ep, hep, hf⟩
    obtain ⟨e, he, rfl⟩ := List.getElem_of_mem hep
    obtain ⟨t, ht, rfl⟩ := List.getElem_of_mem hf
    refine ⟨t, by rw [← hlen _ hep]; exact ht, e, he, ?_⟩
    rw [List.getD_eq_getElem?_getD (l := eps), List.getElem?_eq_getElem he, Option.getD_some,
      List.getD_eq_getElem?_getD, List.getElem?_eq_getElem ht, Option.getD_some]

/-- C186 (exactly): whatever the generator and the history, the files that may be played are those that the search finds in
the directories of the listed files that have no subdirectories, whether or not these files are listed themselves. -/
theorem C186_played_iff (sch : Sched S B) (hk : KeepsFiles sch) (os : LeafDirs.OS)
    (hset : LeafDirs.SetIter os.iterSet) (glob : String → List String) (b l : Nat) (inner : S)
    (hmade : ∃ (rng : Rng Key) (key : Key) (cfg : Cfg) (e0 : St S Key),
      init sch rng os glob (some b) (some l) inner key = .ok (cfg, e0)) (f : String) :
    MayBePlayed Key sch os glob b l inner f ↔
      ∃ p ∈ sch.fileList inner, IsLeaf os (os.parent p) ∧ f ∈ glob (os.parent p) := by
  have hleaf : ∀ dirs : List String, LeafDirs.discover os false (sch.fileList inner) = .ok dirs → ∀ d : String,
      d ∈ dirs ↔ ∃ p ∈ sch.fileList inner, os.parent p = d ∧ IsLeaf os d := by
    intro dirs hd d
    have h1 := (LeafDirs.leaves_spec os false _ _ hd).2 d
    rw [h1, (hset _).2, List.mem_map]
    constructor
    · rintro ⟨⟨p, hp, he⟩, hl⟩; exact ⟨p, hp, he, hl⟩
    · rintro ⟨p, hp, he, hl⟩; exact ⟨⟨p, hp, he⟩, hl⟩
  constructor
  · rintro ⟨rng, key, cfg, e0, e, ops, outs, hc, hi, hr, hf⟩
    obtain ⟨dirs, hd, ok, _, _, hs⟩ := init_ok hi
    have hsamp : ∀ a c : St S Key, sample sch rng cfg a = .ok c → ∀ f ∈ sch.fileList c.inner, ∃ d ∈ dirs, f ∈ glob d := by
      intro a c hac f hf
      obtain ⟨eps, h1, h2, h3⟩ := sample_spec ok sch rng hc a
      rw [h3] at hac
      simp only [Except.ok.injEq] at hac
      subst hac
      dsimp only at hf
      rw [hk.reset, hk.set, ← h1, mem_interleave (fun ep hep => (h2 ep hep).1)] at hf
      obtain ⟨ep, hep, hfe⟩ := hf
      obtain ⟨_, d, hdm, listing, hp, _, hin⟩ := h2 ep hep
      exact ⟨d, hdm, hp.mem_iff.mp (hin.subset hfe)⟩
    obtain ⟨d, hdm, hfd⟩ := run_queue sch hk rng cfg (fun fl => ∀ f ∈ fl, ∃ d ∈ dirs, f ∈ glob d) hsamp ops outs e0 e
      (hsamp _ _ hs) hr f hf
    obtain ⟨p, hp, rfl, hl⟩ := (hleaf dirs hd d).mp hdm
    exact ⟨p, hp, hl, hfd⟩
  · rintro ⟨p, hp, hl, hf⟩
    obtain ⟨rng0, key, cfg0, e00, hi0⟩ := hmade
    obtain ⟨dirs, hd, ok0, hb, hll, hs0⟩ := init_ok hi0
    have hb : b = cfg0.batchSize := by simpa using hb
    have hll : l = cfg0.episodeLength := by simpa using hll
    have hdm : os.parent p ∈ dirs := (hleaf dirs hd _).mpr ⟨p, hp, rfl, hl⟩
    obtain ⟨q, hq, hfq⟩ := window_covers ok0 hdm hf
    obtain ⟨i, hi, rfl⟩ := List.getElem_of_mem hq
    let rng : Rng Key := ⟨fun k => (k, k), fun _ n m => List.replicate m (i % n)⟩
    have hc : ChoiceOK rng := by
      intro k n m hn
      refine ⟨by simp [rng], fun j hj => ?_⟩
      rw [List.eq_of_mem_replicate hj]
      exact Nat.mod_lt _ hn
    have hpos := ok0.pos
    have hlpos := ok0.lpos
    have hdne : dirs ≠ [] := List.ne_nil_of_mem hdm
    obtain ⟨⟨cfg, e0⟩, hinit⟩ := (C20_construction_iff sch rng os glob (some b) (some l) inner key dirs hd).1.mpr
      ⟨b, l, rfl, rfl, by omega, by omega, hdne, fun d hdm => by have := ok0.enough d hdm; omega⟩
    obtain ⟨dirs', hd', ok, hb', hl', hs⟩ := init_ok hinit
    rw [hd] at hd'
    simp only [Except.ok.injEq] at hd'
    subst hd'
    have hb' : b = cfg.batchSize := by simpa using hb'
    have hl' : l = cfg.episodeLength := by simpa using hl'
    have hcfg : cfg = cfg0 := cfg_eq ok ok0 (hb'.symm.trans hb) (hl'.symm.trans hll)
    subst hcfg
    refine ⟨rng, key, cfg, e0, e0, [], [], hc, hinit, rfl, ?_⟩
    have hne : cfg.starts.isEmpty = false := by simpa using ok.ne
    have hmod : i % cfg.starts.length = i := Nat.mod_eq_of_lt hi
    simp only [sample, hne, Bool.false_eq_true, if_false, Except.ok.injEq] at hs
    subst hs
    dsimp only
    rw [hk.reset, hk.set]
    have hlen : ((rng.choice (rng.split key).2 cfg.starts.length cfg.batchSize).map
        (fun i => cfg.starts.getD i ("", 0))).map (window cfg) = List.replicate cfg.batchSize (window cfg cfg.starts[i]) := by
      simp only [rng, List.map_replicate, hmod, List.getD_eq_getElem?_getD, List.getElem?_eq_getElem hi, Option.getD_some]
    rw [hlen]
    have hall : ∀ ep ∈ List.replicate cfg.batchSize (window cfg cfg.starts[i]), ep.length = cfg.episodeLength := by
      intro ep hep
      rw [List.eq_of_mem_replicate hep]
      exact (window_episode ok hq).1
    have := (mem_interleave hall f).mpr ⟨_, List.mem_replicate.mpr ⟨by omega, rfl⟩, hfq⟩
    rwa [List.length_replicate] at this

/-- C186, the first half, exactly: no unlisted file can be played iff the list names whole directories. -/
theorem C186_only_listed_iff (sch : Sched S B) (hk : KeepsFiles sch) (os : LeafDirs.OS)
    (hset : LeafDirs.SetIter os.iterSet) (glob : String → List String) (b l : Nat) (inner : S)
    (hmade : ∃ (rng : Rng Key) (key : Key) (cfg : Cfg) (e0 : St S Key),
      init sch rng os glob (some b) (some l) inner key = .ok (cfg, e0)) :
    (∀ f, MayBePlayed Key sch os glob b l inner f → f ∈ sch.fileList inner) ↔
      WholeDirectories os glob (sch.fileList inner) := by
  constructor
  · intro h p hp hl f hf
    exact h f ((C186_played_iff sch hk os hset glob b l inner hmade f).mpr ⟨p, hp, hl, hf⟩)
  · intro h f hf
    obtain ⟨p, hp, hl, hfp⟩ := (C186_played_iff sch hk os hset glob b l inner hmade f).mp hf
    exact h p hp hl f hfp

/-- C186, the second half, exactly: every listed file can be played iff each is found by the search in a directory without
subdirectories. -/
theorem C186_all_listed_iff (sch : Sched S B) (hk : KeepsFiles sch) (os : LeafDirs.OS)
    (hset : LeafDirs.SetIter os.iterSet) (glob : String → List String) (b l : Nat) (inner : S)
    (hmade : ∃ (rng : Rng Key) (key : Key) (cfg : Cfg) (e0 : St S Key),
      init sch rng os glob (some b) (some l) inner key = .ok (cfg, e0)) :
    (∀ f ∈ sch.fileList inner, MayBePlayed Key sch os glob b l inner f) ↔
      AllInLeaves os glob (sch.fileList inner) := by
  constructor
  · intro h f hf
    exact (C186_played_iff sch hk os hset glob b l inner hmade f).mp (h f hf)
  · intro h f hf
    exact (C186_played_iff sch hk os hset glob b l inner hmade f).mpr (h f hf)

/-- C186 if the list names whole directories that have no subdirectories: the files that may be played are the listed ones.
Missing: other lists, for which both halves fail (`C186_refuted_unlisted`, `C186_refuted_unplayed`). -/
theorem C186_playlist_partial (sch : Sched S B) (hk : KeepsFiles sch) (os : LeafDirs.OS)
    (hset : LeafDirs.SetIter os.iterSet) (glob : String → List String) (b l : Nat) (inner : S)
    (hmade : ∃ (rng : Rng Key) (key : Key) (cfg : Cfg) (e0 : St S Key),
      init sch rng os glob (some b) (some l) inner key = .ok (cfg, e0))
    (hw : WholeDirectories os glob (sch.fileList inner)) (ha : AllInLeaves os glob (sch.fileList inner)) (f : String) :
    MayBePlayed Key sch os glob b l inner f ↔ f ∈ sch.fileList inner :=
  ⟨(C186_only_listed_iff sch hk os hset glob b l inner hmade).mpr hw f,
   (C186_all_listed_iff sch hk os hset glob b l inner hmade).mpr ha f⟩

/-- C186 is false: only `d0` and `e0` are listed, the other frames being kept for other purposes, and batches of other
frames are delivered. -/
theorem C186_refuted_unlisted : demoFiles false ["d0", "e0"] [1, 3] [.getBatch 2, .getBatch 2] =
    some [some ["d1", "e1"], some ["d2", "e2"]] := by decide +kernel

/-- A directory `r` with a listed file and the subdirectory `d`. -/
def mixedOS : LeafDirs.OS where
  parent p := if p = "r0" then "r" else "d"
  scan d := if d = "r" then .entries [.file, .dir] else .entries [.file, .file, .file]
  iterSet l := l.dedup

theorem mixedOS_set : LeafDirs.SetIter mixedOS.iterSet := fun l => ⟨List.nodup_dedup l, fun _ => List.mem_dedup⟩

private theorem demo_keeps : KeepsFiles (demoSched false) := base_keepsFiles 0 demoWorld ⟨false, false⟩ rfl 9

private theorem mixed_made : ∃ (rng : Rng KeyTerm) (key : KeyTerm) (cfg : Cfg) (e0 : St (Base.St Unit KeyTerm) KeyTerm),
    init (demoSched false) rng mixedOS demoGlob (some 2) (some 2) (demoInner false ["r0", "d0", "d1", "d2"]) key =
      .ok (cfg, e0) := ⟨demoRng [0], .seed 1, _, _, rfl⟩

/-- C186 is false in the other direction: construction succeeds, and the listed file `r0`, whose directory has a
subdirectory, is never played, whatever the generator and the history. -/
theorem C186_refuted_unplayed :
    "r0" ∈ (demoSched false).fileList (demoInner false ["r0", "d0", "d1", "d2"]) ∧
    (∃ (rng : Rng KeyTerm) (key : KeyTerm) (cfg : Cfg) (e0 : St (Base.St Unit KeyTerm) KeyTerm),
      init (demoSched false) rng mixedOS demoGlob (some 2) (some 2) (demoInner false ["r0", "d0", "d1", "d2"]) key =
        .ok (cfg, e0)) ∧
    ¬ MayBePlayed KeyTerm (demoSched false) mixedOS demoGlob 2 2 (demoInner false ["r0", "d0", "d1", "d2"]) "r0" := by
  refine ⟨by decide, mixed_made, ?_⟩
  rw [C186_played_iff (demoSched false) demo_keeps mixedOS mixedOS_set demoGlob 2 2 _ mixed_made "r0"]
  rintro ⟨p, hp, _, hf⟩
  have : ∀ d : String, "r0" ∉ demoGlob d := by
    intro d
    unfold demoGlob
    split
    · decide
    · split <;> decide
  exact this _ hf

/-- The hypotheses of `C186_playlist_partial` are met by the list of all frames of `d`. -/
example : WholeDirectories mixedOS demoGlob ["d0", "d1", "d2"] ∧ AllInLeaves mixedOS demoGlob ["d0", "d1", "d2"] ∧
    ∃ (rng : Rng KeyTerm) (key : KeyTerm) (cfg : Cfg) (e0 : St (Base.St Unit KeyTerm) KeyTerm),
      init (demoSched false) rng mixedOS demoGlob (some 2) (some 2) (demoInner false ["d0", "d1", "d2"]) key = .ok (cfg, e0) := by
  have hl : IsLeaf mixedOS "d" := ⟨[.file, .file, .file], rfl, by decide⟩
  refine ⟨?_, ?_, ⟨demoRng [0], .seed 1, _, _, rfl⟩⟩
  · have : ∀ p ∈ ["d0", "d1", "d2"], ∀ f ∈ demoGlob (mixedOS.parent p), f ∈ ["d0", "d1", "d2"] := by decide
    exact fun p hp _ f hf => this p hp f hf
  · have : ∀ f ∈ ["d0", "d1", "d2"], f ∈ demoGlob "d" := by decide
    exact fun f hf => ⟨"d0", by decide, hl, this f hf⟩

end Verif.Episodic
