import Verif.Spec.Episodic
import Verif.Proofs.ArrIx
import Verif.Proofs.BaseMore
/-!
# Lemmas about the episodic scheduler
-/

namespace Verif.Episodic
open Verif
variable {S B Key : Type}

theorem startsOf_mem (L : Nat) (d : String) (s : Nat) : ∀ l : List (String × List String),
    (d, s) ∈ startsOf L l ↔ ∃ files, (d, files) ∈ l ∧ s < files.length - L + 1
  | [] => by simp [startsOf]
  | (d', files) :: l => by
    simp only [startsOf, List.mem_append, List.mem_map, List.mem_range, Prod.mk.injEq, startsOf_mem L d s l, List.mem_cons]
    constructor
    · rintro (⟨a, ha, rfl, rfl⟩ | ⟨f, hf, hs⟩)
      · exact ⟨files, .inl ⟨rfl, rfl⟩, ha⟩
      · exact ⟨f, .inr hf, hs⟩
    · rintro ⟨f, ⟨rfl, rfl⟩ | hf, hs⟩
      · exact .inl ⟨s, hs, rfl, rfl⟩
      · exact .inr ⟨f, hf, hs⟩

theorem startsOf_nodup (L : Nat) : ∀ l : List (String × List String), (l.map Prod.fst).Nodup → (startsOf L l).Nodup
  | [], _ => by simp [startsOf]
  | (d, files) :: l, h => by
    rw [List.map_cons, List.nodup_cons] at h
    simp only [startsOf]
    refine List.Nodup.append ?_ (startsOf_nodup L l h.2) ?_
    · exact List.Nodup.map (fun a b hab => by simpa using hab) List.nodup_range
    · intro q hq hq'
      obtain ⟨a, _, rfl⟩ := List.mem_map.mp hq
      obtain ⟨f, hf, _⟩ := (startsOf_mem L d a l).mp hq'
      exact h.1 (List.mem_map.mpr ⟨_, hf, rfl⟩)

theorem lookup_filesOf (glob : String → List String) : ∀ (dirs : List String) (d : String), d ∈ dirs →
    (filesOf glob dirs).lookup d = some ((glob d).insertionSort (· ≤ ·))
  | [], d, h => by simp at h
  | d' :: dirs, d, h => by
    by_cases hd : d = d'
    · subst hd; simp [filesOf]
    · have : d ∈ dirs := by simpa [hd] using h
      have ih := lookup_filesOf glob dirs d this
      have hb : (d == d') = false := by simpa using hd
      simp only [filesOf, List.map_cons, List.lookup_cons, hb]
      exact ih

/-- What the constructor establishes about the fixed attributes. -/
structure CfgOK (glob : String → List String) (dirs : List String) (cfg : Cfg) : Prop where
  pos : 0 < cfg.batchSize
  lpos : 0 < cfg.episodeLength
  d2f : cfg.dir2files = filesOf glob dirs
  starts : cfg.starts = startsOf cfg.episodeLength cfg.dir2files
  enough : ∀ d ∈ dirs, cfg.episodeLength ≤ (glob d).length
  ne : cfg.starts ≠ []

theorem mem_starts {glob dirs cfg} (h : CfgOK glob dirs cfg) (d : String) (s : Nat) :
    (d, s) ∈ cfg.starts ↔ d ∈ dirs ∧ s + cfg.episodeLength ≤ (glob d).length := by
  rw [h.starts, startsOf_mem, h.d2f]
  constructor
  · rintro ⟨f, hf, hs⟩
    obtain ⟨d', hd', he⟩ := List.mem_map.mp hf
    simp only [Prod.mk.injEq] at he
    obtain ⟨rfl, rfl⟩ := he
    have := h.enough _ hd'
    rw [List.length_insertionSort] at hs
    exact ⟨hd', by omega⟩
  · rintro ⟨hd, hs⟩
    exact ⟨_, List.mem_map.mpr ⟨d, hd, rfl⟩, by rw [List.length_insertionSort]; omega⟩

theorem window_episode {glob dirs cfg} (h : CfgOK glob dirs cfg) {q : String × Nat} (hq : q ∈ cfg.starts) :
    IsEpisode glob dirs cfg.episodeLength (window cfg q) := by
  obtain ⟨d, s⟩ := q
  obtain ⟨hd, hs⟩ := (mem_starts h d s).mp hq
  have hw : window cfg (d, s) = (((glob d).insertionSort (· ≤ ·)).drop s).take cfg.episodeLength := by
    simp [window, h.d2f, lookup_filesOf glob dirs d hd]
  rw [hw]
  refine ⟨?_, d, hd, _, List.perm_insertionSort _ _, List.pairwise_insertionSort _ _, ?_⟩
  · rw [List.length_take, List.length_drop, List.length_insertionSort]; omega
  · exact (List.take_prefix _ _).isInfix.trans (List.drop_suffix _ _).isInfix

theorem interleave_length (L B : Nat) (eps : List (List String)) : (interleave L B eps).length = L * B := by
  simp [interleave, List.length_flatMap]

theorem interleave_get {L B : Nat} {eps : List (List String)} {t e : Nat} (ht : t < L) (he : e < B) :
    (interleave L B eps)[t * B + e]? = some ((eps.getD e []).getD t "") := by
  have := Arr.flatMap_block (fun t => (List.range B).map (fun ep => (eps.getD ep []).getD t "")) B (List.range L)
    (by simp) t e (by simpa using ht) he
  unfold interleave
  rw [this]
  simp [he]

theorem interleave_sideBySide {L : Nat} {eps : List (List String)} (h : ∀ ep ∈ eps, ep.length = L) :
    SideBySide L eps (interleave L eps.length eps) := by
  refine ⟨interleave_length _ _ _, ?_⟩
  intro t e he ht
  rw [interleave_get ht he]
  have hl : eps[e].length = L := h _ (List.getElem_mem he)
  simp [List.getD_eq_getElem?_getD, List.getElem?_eq_getElem he, hl, ht]

theorem flatMap_single {α : Type} (c : String → List α) (f : String → α) :
    ∀ l : List String, (∀ p ∈ l, c p = [f p]) → l.flatMap c = l.map f
  | [], _ => rfl
  | a :: l, h => by
    rw [List.flatMap_cons, List.map_cons, flatMap_single c f l (fun p hp => h p (List.mem_cons_of_mem _ hp)),
      h a List.mem_cons_self]
    rfl

/-- Every restart succeeds and injects episodes side by side. -/
theorem sample_spec {glob dirs cfg} (h : CfgOK glob dirs cfg) (sch : Sched S B) (rng : Rng Key) (hc : ChoiceOK rng)
    (e : St S Key) :
    ∃ eps : List (List String), eps.length = cfg.batchSize ∧ (∀ ep ∈ eps, IsEpisode glob dirs cfg.episodeLength ep) ∧
      sample sch rng cfg e = .ok { e with
        inner := sch.reset (sch.setFileList (interleave cfg.episodeLength cfg.batchSize eps) e.inner),
        key := (rng.split e.key).1 } := by
  have hpos : 0 < cfg.starts.length := List.length_pos_iff.mpr h.ne
  obtain ⟨c1, c2⟩ := hc (rng.split e.key).2 cfg.starts.length cfg.batchSize hpos
  refine ⟨((rng.choice (rng.split e.key).2 cfg.starts.length cfg.batchSize).map (fun i => cfg.starts.getD i ("", 0))).map
    (window cfg), by simp [c1], ?_, ?_⟩
  · intro ep hep
    simp only [List.map_map, List.mem_map, Function.comp_apply] at hep
    obtain ⟨i, hi, rfl⟩ := hep
    refine window_episode h ?_
    rw [List.getD_eq_getElem?_getD, List.getElem?_eq_getElem (c2 i hi)]
    exact List.getElem_mem _
  · have : cfg.starts.isEmpty = false := by simpa using h.ne
    simp [sample, this]

theorem startsOf_ne_nil (L : Nat) (glob : String → List String) (dirs : List String) :
    startsOf L (filesOf glob dirs) ≠ [] ↔ dirs ≠ [] := by
  cases dirs with
  | nil => simp [filesOf, startsOf]
  | cons d l => simp [filesOf, startsOf]

/-- The constructor, in one equation. -/
theorem init_ok {sch : Sched S B} {rng : Rng Key} {os glob bs el inner key} {cfg : Cfg} {e : St S Key}
    (h : init sch rng os glob bs el inner key = .ok (cfg, e)) :
    ∃ dirs, LeafDirs.discover os false (sch.fileList inner) = .ok dirs ∧ CfgOK glob dirs cfg ∧
      bs = some (cfg.batchSize : Int) ∧ el = some (cfg.episodeLength : Int) ∧
      sample sch rng cfg { inner := inner, t := 0, key := key } = .ok e := by
  unfold init at h
  split at h
  · simp at h
  · rename_i b
    split at h
    · simp at h
    · split at h
      · simp at h
      · rename_i l
        split at h
        · simp at h
        · split at h
          · simp at h
          · rename_i dirs hd
            split at h
            · simp at h
            · rename_i d2f starts hcs
              simp only at h
              split at h
              · simp at h
              · rename_i e' hs
                simp only [Except.ok.injEq, Prod.mk.injEq] at h
                obtain ⟨rfl, rfl⟩ := h
                unfold calculateStarts at hcs
                split at hcs
                · simp at hcs
                · rename_i hany
                  simp only [Except.ok.injEq, Prod.mk.injEq] at hcs
                  obtain ⟨rfl, rfl⟩ := hcs
                  refine ⟨dirs, hd, ⟨by simp; omega, by simp; omega, rfl, rfl, ?_, ?_⟩, by simp; omega, by simp; omega, hs⟩
                  · intro d hdm
                    by_contra hlt
                    apply hany
                    rw [List.any_eq_true]
                    exact ⟨_, List.mem_map.mpr ⟨d, hdm, rfl⟩, by simpa using hlt⟩
                  · intro hnil
                    simp only at hnil
                    simp [sample, hnil] at hs

/-- A request that is covered by the samples left in the current pass does not depend on the `loop` flag. -/
theorem collect_within {V D K : Type} {w : Base.World V D K} {cfg : Base.Cfg} {c : String → List (Base.Sample V)} :
    ∀ (n : Nat) (s : Base.St D K), Base.Inv w c s → n ≤ (Base.rem c s).length →
    ∃ s', Base.Inv w c s' ∧ Base.rem c s' = (Base.rem c s).drop n ∧ s'.fileList = s.fileList ∧
      ∀ fuel, s.fileList.length ≤ fuel → Base.collect w cfg fuel n s = some (.ok ((Base.rem c s).take n), s')
  | 0, s, hi, _ => ⟨s, hi, by simp, rfl, fun _ _ => by simp [Base.collect]⟩
  | n + 1, s, hi, hn => by
    rcases Base.getNext_epoch (cfg := cfg) s.fileList.length s hi (by omega) with ⟨x, s', h1, h2, h3, h4, h5⟩ | ⟨h1, _⟩
    · have hn' : n ≤ (Base.rem c s').length := by rw [h1] at hn; simpa using hn
      obtain ⟨s'', g1, g2, g3, g4⟩ := collect_within (cfg := cfg) n s' h2 hn'
      refine ⟨s'', g1, by rw [g2, h1]; simp, by rw [g3, h3], fun fuel hf => ?_⟩
      simp only [Base.collect, h5 fuel hf, g4 fuel (by rw [h3]; exact hf)]
      rw [h1]; simp
    · rw [h1] at hn; simp at hn

theorem getBatch_within {V D K : Type} {w : Base.World V D K} {cfg : Base.Cfg} {c : String → List (Base.Sample V)} (zero : V)
    {n : Nat} (hpos : 0 < n) {s : Base.St D K} (hi : Base.Inv w c s) (hn : n ≤ (Base.rem c s).length) :
    ∃ s', Base.Inv w c s' ∧ Base.rem c s' = (Base.rem c s).drop n ∧ s'.fileList = s.fileList ∧
      ∀ fuel, s.fileList.length ≤ fuel →
        Base.getBatch zero w cfg fuel n s = some (Base.assemble zero cfg ((Base.rem c s).take n) n, s') := by
  obtain ⟨s', h1, h2, h3, h4⟩ := collect_within (cfg := cfg) n s hi hn
  refine ⟨s', h1, h2, h3, fun fuel hf => ?_⟩
  have hne : ((Base.rem c s).take n).isEmpty = false := by
    cases hr : Base.rem c s with
    | nil => rw [hr] at hn; simp at hn; omega
    | cons a l => obtain ⟨m, rfl⟩ : ∃ m, n = m + 1 := ⟨n - 1, by omega⟩; simp
  simp [Base.getBatch, h4 fuel hf, hne]

theorem iter_fileList {V D K : Type} {w : Base.World V D K} {cfg : Base.Cfg} (hr : cfg.randomize = false) (s : Base.St D K) :
    match Base.iter w cfg s with
    | .cont s' | .ret _ s' | .stop s' | .raise _ s' => s'.fileList = s.fileList := by
  have hts : ∀ (s : Base.St D K) p d, match Base.takeSlice w s p d with
      | .cont s' | .ret _ s' | .stop s' | .raise _ s' => s'.fileList = s.fileList := by
    intro s p d
    unfold Base.takeSlice
    cases w.slice p d s.sliceIdx <;> rfl
  have hb : ∀ (s : Base.St D K), match Base.body w s with
      | .cont s' | .ret _ s' | .stop s' | .raise _ s' => s'.fileList = s.fileList := by
    intro s
    unfold Base.body
    cases s.fileList[s.index]? with
    | none => rfl
    | some path =>
      simp only
      cases hc : s.cached with
      | none =>
        simp only
        cases w.load path with
        | ok d' => exact hts _ _ _
        | error _ => rfl
      | some q =>
        obtain ⟨q, d⟩ := q
        simp only
        by_cases hq : q = path
        · rw [if_pos hq]; exact hts _ _ _
        · rw [if_neg hq]
          cases w.load path with
          | ok d' => exact hts _ _ _
          | error _ => rfl
  unfold Base.iter
  by_cases hlt : s.index < s.fileList.length
  · rw [if_pos hlt]; exact hb s
  · rw [if_neg hlt]
    by_cases hl : cfg.loop = true
    · rw [if_pos hl]
      have := hb (Base.reset w cfg s)
      have hf : (Base.reset w cfg s).fileList = s.fileList := by simp [Base.reset, Base.shuffle, hr]
      rw [hf] at this
      exact this
    · rw [if_neg hl]

theorem getNext_fileList {V D K : Type} {w : Base.World V D K} {cfg : Base.Cfg} (hr : cfg.randomize = false) :
    ∀ (fuel : Nat) (s s' : Base.St D K) r, Base.getNext w cfg fuel s = some (r, s') → s'.fileList = s.fileList
  | 0, s, s', r, h => by simp [Base.getNext] at h
  | fuel + 1, s, s', r, h => by
    have hi := iter_fileList (w := w) hr s
    unfold Base.getNext at h
    cases hit : Base.iter w cfg s with
    | cont s1 =>
      rw [hit] at h hi
      rw [getNext_fileList hr fuel s1 s' r h]; exact hi
    | ret x s1 => rw [hit] at h hi; simp only [Option.some.injEq, Prod.mk.injEq] at h; rw [← h.2]; exact hi
    | stop s1 => rw [hit] at h hi; simp only [Option.some.injEq, Prod.mk.injEq] at h; rw [← h.2]; exact hi
    | raise x s1 => rw [hit] at h hi; simp only [Option.some.injEq, Prod.mk.injEq] at h; rw [← h.2]; exact hi

theorem collect_fileList {V D K : Type} {w : Base.World V D K} {cfg : Base.Cfg} (hr : cfg.randomize = false) (fuel : Nat) :
    ∀ (n : Nat) (s s' : Base.St D K) r, Base.collect w cfg fuel n s = some (r, s') → s'.fileList = s.fileList
  | 0, s, s', r, h => by simp only [Base.collect, Option.some.injEq, Prod.mk.injEq] at h; rw [h.2]
  | n + 1, s, s', r, h => by
    unfold Base.collect at h
    split at h
    · simp at h
    · rename_i s1 hg
      simp only [Option.some.injEq, Prod.mk.injEq] at h
      rw [← h.2]; exact getNext_fileList hr _ _ _ _ hg
    · rename_i e s1 hg
      split at h <;>
      · simp only [Option.some.injEq, Prod.mk.injEq] at h
        rw [← h.2]; exact getNext_fileList hr _ _ _ _ hg
    · rename_i x s1 hg
      have h1 := getNext_fileList hr _ _ _ _ hg
      split at h
      · simp at h
      · rename_i hc
        simp only [Option.some.injEq, Prod.mk.injEq] at h
        rw [← h.2, ← h1]; exact collect_fileList hr fuel n _ _ _ hc
      · rename_i hc
        simp only [Option.some.injEq, Prod.mk.injEq] at h
        rw [← h.2, ← h1]; exact collect_fileList hr fuel n _ _ _ hc

/-- A base scheduler without shuffling plays the list it is given. -/
theorem base_keepsFiles {V D K : Type} (zero : V) (w : Base.World V D K) (cfg : Base.Cfg) (hr : cfg.randomize = false)
    (fuel : Nat) : KeepsFiles (Base.sched zero w cfg fuel) where
  set _ _ := rfl
  reset s := by simp [Base.sched, Base.reset, Base.shuffle, hr]
  getBatch n s r s' h := by
    simp only [Base.sched, Base.getBatch] at h ⊢
    split at h
    · simp at h
    · rename_i hc
      simp only [Option.some.injEq, Prod.mk.injEq] at h
      rw [← h.2]; exact collect_fileList hr _ _ _ _ _ hc
    · rename_i hc
      have := collect_fileList hr _ _ _ _ _ hc
      split at h
      · split at h
        · simp only [Option.some.injEq, Prod.mk.injEq] at h
          rw [← h.2, ← this]; simp [Base.reset, Base.shuffle, hr]
        · simp only [Option.some.injEq, Prod.mk.injEq] at h
          rw [← h.2]; exact this
      · simp only [Option.some.injEq, Prod.mk.injEq] at h
        rw [← h.2]; exact this

theorem iter_raise {V D K : Type} {w : Base.World V D K} {cfg : Base.Cfg} {s s' : Base.St D K} {e : Exc}
    (h : Base.iter w cfg s = .raise e s') : e = .indexError ∨ ∃ p d i, w.slice p d i = .fail e := by
  have hts : ∀ (s : Base.St D K) p d, Base.takeSlice w s p d = .raise e s' → ∃ p d i, w.slice p d i = .fail e := by
    intro s p d ht
    unfold Base.takeSlice at ht
    cases hs : w.slice p d s.sliceIdx with
    | ok x => rw [hs] at ht; simp at ht
    | ended => rw [hs] at ht; simp at ht
    | fail e' =>
      rw [hs] at ht
      simp only [Base.Step.raise.injEq] at ht
      exact ⟨p, d, _, by rw [hs, ht.1]⟩
  have hb : ∀ (s : Base.St D K), Base.body w s = .raise e s' → e = .indexError ∨ ∃ p d i, w.slice p d i = .fail e := by
    intro s hb
    unfold Base.body at hb
    split at hb
    · simp only [Base.Step.raise.injEq] at hb; exact .inl hb.1.symm
    · split at hb
      · split at hb
        · exact .inr (hts _ _ _ hb)
        · split at hb
          · exact .inr (hts _ _ _ hb)
          · simp at hb
      · split at hb
        · exact .inr (hts _ _ _ hb)
        · simp at hb
  unfold Base.iter at h
  split at h
  · exact hb _ h
  · split at h
    · exact hb _ h
    · simp at h

/-- A base scheduler does not raise `EpisodeEnd` unless its loader does. -/
theorem base_no_episodeEnd {V D K : Type} (zero : V) (w : Base.World V D K) (cfg : Base.Cfg) (fuel : Nat)
    (hw : ∀ p d i, w.slice p d i ≠ .fail .episodeEnd) (n : Nat) (s s' : Base.St D K) :
    (Base.sched zero w cfg fuel).getBatch n s ≠ some (.error .episodeEnd, s') := by
  intro h
  obtain ⟨_, s1, _, _, hg⟩ := Base.getBatch_error (by decide) (by decide) (show Base.getBatch zero w cfg fuel n s = _ from h)
  have : ∀ (fuel : Nat) (s : Base.St D K), Base.getNext w cfg fuel s = some (.raise .episodeEnd, s') → False := by
    intro fuel
    induction fuel with
    | zero => intro s h; simp [Base.getNext] at h
    | succ fuel ih =>
      intro s h
      unfold Base.getNext at h
      split at h
      · exact ih _ h
      · simp at h
      · simp at h
      · rename_i hi
        simp only [Option.some.injEq, Prod.mk.injEq, Base.Next.raise.injEq] at h
        rw [h.1] at hi
        rcases iter_raise hi with h1 | ⟨p, d, i, h1⟩
        · simp at h1
        · exact hw p d i h1
  exact this _ _ hg

end Verif.Episodic
