import Verif.Proofs.BaseHist
import Verif.Proofs.BaseRun
import Verif.Proofs.BaseMore
import Verif.Spec.Append
/-!
# Lemmas about appending to the file list
-/

namespace Verif.Append
open Verif
open scoped List
variable {V D Key : Type}

/-- The cached file is one of the list, and the position is within the list or at its end. -/
def Listed (s : Base.St D Key) : Prop := (∀ q d, s.cached = some (q, d) → q ∈ s.fileList) ∧ s.index ≤ s.fileList.length

theorem takeSlice_listed (w : Base.World V D Key) (s : Base.St D Key) (p : String) (d : D) (h : Listed s)
    (hi : s.index < s.fileList.length) : Listed (Base.takeSlice w s p d).state := by
  unfold Base.takeSlice
  split
  · exact h
  · exact ⟨h.1, hi⟩
  · exact h

theorem body_listed (w : Base.World V D Key) (s : Base.St D Key) (h : Listed s) : Listed (Base.body w s).state := by
  unfold Base.body
  split
  · exact h
  rename_i path hp
  have hmem : path ∈ s.fileList := List.mem_of_getElem? hp
  have hi : s.index < s.fileList.length := (List.getElem?_eq_some_iff.mp hp).1
  have hnew : ∀ d' : D, Listed { s with cached := some (path, d'), sliceIdx := 0 } := by
    intro d'
    refine ⟨?_, h.2⟩
    intro q d hq
    simp only [Option.some.injEq, Prod.mk.injEq] at hq
    rw [← hq.1]; exact hmem
  have hnone : Listed ({ s with cached := none, index := s.index + 1 } : Base.St D Key) := by
    refine ⟨?_, hi⟩
    intro q d hq; cases hq
  split
  · split
    · exact takeSlice_listed _ _ _ _ h hi
    · split
      · exact takeSlice_listed _ _ _ _ (hnew _) hi
      · exact hnone
  · split
    · exact takeSlice_listed _ _ _ _ (hnew _) hi
    · exact hnone

theorem reset_listed (w : Base.World V D Key) (cfg : Base.Cfg) (s : Base.St D Key) : Listed (Base.reset w cfg s) := by
  refine ⟨?_, Nat.zero_le _⟩
  intro q d hq; cases hq

theorem iter_listed (w : Base.World V D Key) (cfg : Base.Cfg) (s : Base.St D Key) (h : Listed s) :
    Listed (Base.iter w cfg s).state := by
  unfold Base.iter
  split
  · exact body_listed _ _ h
  · split
    · exact body_listed _ _ (reset_listed _ _ _)
    · exact h

theorem getNext_listed {w : Base.World V D Key} {cfg : Base.Cfg} : ∀ (fuel : Nat) (s : Base.St D Key) {r s'},
    Base.getNext w cfg fuel s = some (r, s') → Listed s → Listed s'
  | 0, s, r, s', h, _ => by simp [Base.getNext] at h
  | fuel + 1, s, r, s', h, hs => by
    have hl := iter_listed w cfg s hs
    simp only [Base.getNext] at h
    split at h
    all_goals
      rename_i hi
      rw [hi] at hl
    · exact getNext_listed fuel _ h hl
    all_goals
      simp only [Option.some.injEq, Prod.mk.injEq] at h
      rw [← h.2]; exact hl

theorem collect_listed {w : Base.World V D Key} {cfg : Base.Cfg} : ∀ (n fuel : Nat) (s : Base.St D Key) {r s'},
    Base.collect w cfg fuel n s = some (r, s') → Listed s → Listed s'
  | 0, fuel, s, r, s', h, hs => by
    simp only [Base.collect, Option.some.injEq, Prod.mk.injEq] at h
    rw [← h.2]; exact hs
  | n + 1, fuel, s, r, s', h, hs => by
    simp only [Base.collect] at h
    cases hg : Base.getNext w cfg fuel s with
    | none => rw [hg] at h; simp at h
    | some res =>
      obtain ⟨nx, s0⟩ := res
      rw [hg] at h
      have h0 := getNext_listed fuel s hg hs
      cases nx with
      | stop => simp only [Option.some.injEq, Prod.mk.injEq] at h; rw [← h.2]; exact h0
      | raise e =>
        simp only at h
        split at h <;> (simp only [Option.some.injEq, Prod.mk.injEq] at h; rw [← h.2]; exact h0)
      | ret x =>
        simp only at h
        cases hc : Base.collect w cfg fuel n s0 with
        | none => rw [hc] at h; simp at h
        | some res' =>
          obtain ⟨r', s1⟩ := res'
          rw [hc] at h
          have h1 := collect_listed n fuel s0 hc h0
          cases r' <;> (simp only [Option.some.injEq, Prod.mk.injEq] at h; rw [← h.2]; exact h1)

theorem getBatch_listed {zero : V} {w : Base.World V D Key} {cfg : Base.Cfg} {fuel n : Nat} {s s' : Base.St D Key} {r}
    (h : Base.getBatch zero w cfg fuel n s = some (r, s')) (hs : Listed s) : Listed s' := by
  simp only [Base.getBatch] at h
  cases hc : Base.collect w cfg fuel n s with
  | none => rw [hc] at h; simp at h
  | some res =>
    obtain ⟨r', s0⟩ := res
    rw [hc] at h
    have h0 := collect_listed n fuel s hc hs
    cases r' with
    | error e => simp only [Option.some.injEq, Prod.mk.injEq] at h; rw [← h.2]; exact h0
    | ok b =>
      simp only at h
      split at h
      · split at h
        · simp only [Option.some.injEq, Prod.mk.injEq] at h; rw [← h.2]; exact reset_listed _ _ _
        · simp only [Option.some.injEq, Prod.mk.injEq] at h; rw [← h.2]; exact h0
      · simp only [Option.some.injEq, Prod.mk.injEq] at h; rw [← h.2]; exact h0

theorem runBatches_listed {zero : V} {w : Base.World V D Key} {cfg : Base.Cfg} {fuel : Nat} :
    ∀ (ns : List Nat) (s s' : Base.St D Key) (rs), Base.runBatches zero w cfg fuel ns s = some (rs, s') → Listed s → Listed s'
  | [], s, s', rs, h, hs => by
    simp only [Base.runBatches, Option.some.injEq, Prod.mk.injEq] at h
    rw [← h.2]; exact hs
  | n :: ns, s, s', rs, h, hs => by
    simp only [Base.runBatches] at h
    split at h
    · cases h
    rename_i r s1 hb
    split at h
    · cases h
    rename_i rs' s2 hr
    simp only [Option.some.injEq, Prod.mk.injEq] at h
    rw [← h.2]
    exact runBatches_listed ns s1 s2 rs' hr (getBatch_listed hb hs)

theorem runBatches_fileList {zero : V} {w : Base.World V D Key} {cfg : Base.Cfg} (hc : cfg.randomize = false) {fuel : Nat} :
    ∀ (ns : List Nat) (s s' : Base.St D Key) (rs), Base.runBatches zero w cfg fuel ns s = some (rs, s') → s'.fileList = s.fileList
  | [], s, s', rs, h => by
    simp only [Base.runBatches, Option.some.injEq, Prod.mk.injEq] at h
    rw [← h.2]
  | n :: ns, s, s', rs, h => by
    simp only [Base.runBatches] at h
    split at h
    · cases h
    rename_i r s1 hb
    split at h
    · cases h
    rename_i rs' s2 hr
    simp only [Option.some.injEq, Prod.mk.injEq] at h
    obtain ⟨k, hk⟩ := Base.getBatch_later hb
    rw [Base.shuffles_fixed w cfg hc, Prod.mk.injEq] at hk
    rw [← h.2, runBatches_fileList hc ns s1 s2 rs' hr, hk.1]

/-- The last entry of a list, or `prev`. -/
def lastOr (prev : Option String) : List String → Option String
  | [] => prev
  | p :: l => lastOr (some p) l

theorem streamAfter_append (c : String → List (Base.Sample V)) : ∀ (l l' : List String) (prev : Option String),
    Base.streamAfter c prev (l ++ l') = Base.streamAfter c prev l ++ Base.streamAfter c (lastOr prev l) l'
  | [], l', prev => by simp [Base.streamAfter, lastOr]
  | p :: l, l', prev => by
    simp only [List.cons_append, Base.streamAfter, lastOr, streamAfter_append c l l' (some p), List.append_assoc]

theorem lastOr_mem : ∀ (l : List String) (prev : Option String) (p : String), lastOr prev l = some p → prev = some p ∨ p ∈ l
  | [], prev, p, h => Or.inl h
  | a :: l, prev, p, h => by
    rcases lastOr_mem l (some a) p h with h | h
    · right; cases h; simp
    · right; simp [h]

theorem streamAfter_plain (c : String → List (Base.Sample V)) : ∀ (l : List String) (prev : Option String),
    l.Nodup → (∀ p ∈ l, prev ≠ some p) → Base.streamAfter c prev l = l.flatMap c
  | [], _, _, _ => rfl
  | p :: l, prev, hn, hp => by
    rw [List.nodup_cons] at hn
    rw [Base.streamAfter, if_neg (hp p (by simp)), streamAfter_plain c l (some p) hn.2 (by
      intro q hq e; cases e; exact hn.1 hq)]
    rfl

/-- Appending files of which none is in the list yet puts their samples at the end of what is still to come. -/
theorem rem_append (c : String → List (Base.Sample V)) (s : Base.St D Key) (more : List String) (hl : Listed s)
    (hn : more.Nodup) (hd : ∀ p ∈ more, p ∉ s.fileList) :
    Base.rem c { s with fileList := s.fileList ++ more } = Base.rem c s ++ more.flatMap c := by
  have hdrop : (s.fileList ++ more).drop s.index = s.fileList.drop s.index ++ more := by
    rw [List.drop_append_of_le_length hl.2]
  have hplain : ∀ prev : Option String, (∀ p, prev = some p → p ∈ s.fileList) →
      Base.streamAfter c prev more = more.flatMap c := by
    intro prev hprev
    refine streamAfter_plain c more prev hn ?_
    intro p hp e
    exact hd p hp (hprev p e)
  have hsub : ∀ p ∈ s.fileList.drop s.index, p ∈ s.fileList := fun p hp => List.mem_of_mem_drop hp
  unfold Base.rem
  simp only [hdrop]
  cases hc : s.cached with
  | none =>
    simp only
    rw [streamAfter_append, hplain]
    intro p hp
    rcases lastOr_mem _ _ _ hp with h | h
    · cases h
    · exact hsub p h
  | some qd =>
    obtain ⟨q, d⟩ := qd
    have hq : q ∈ s.fileList := hl.1 q d hc
    cases hrest : s.fileList.drop s.index with
    | nil =>
      simp only [List.nil_append]
      cases more with
      | nil => rfl
      | cons p rest =>
        have hne : ¬ p = q := by rintro rfl; exact hd p (by simp) hq
        simp only [if_neg hne]
        refine hplain (some q) ?_
        intro p' e; cases e; exact hq
    | cons p rest =>
      have hsub' : ∀ x, x ∈ p :: rest → x ∈ s.fileList := by intro x hx; rw [← hrest] at hx; exact hsub x hx
      simp only [List.cons_append]
      by_cases hpq : p = q
      · simp only [if_pos hpq]
        rw [streamAfter_append, hplain, List.append_assoc]
        intro x hx
        rcases lastOr_mem _ _ _ hx with h | h
        · cases h; exact hq
        · exact hsub' x (by simp [h])
      · simp only [if_neg hpq]
        rw [← List.cons_append, streamAfter_append, hplain]
        intro x hx
        rcases lastOr_mem _ _ _ hx with h | h
        · cases h; exact hq
        · exact hsub' x h

/-- What is still to come in the current pass is part of the pass. -/
theorem rem_sublist (c : String → List (Base.Sample V)) (s : Base.St D Key) : Base.rem c s <+ s.fileList.flatMap c := by
  have hdrop : s.fileList.drop s.index <+ s.fileList := List.drop_sublist _ _
  have hsub : ∀ (l : List String) (prev : Option String), Base.streamAfter c prev l <+ l.flatMap c := by
    intro l
    induction l with
    | nil => intro prev; exact List.Sublist.refl _
    | cons p l ih =>
      intro prev
      simp only [Base.streamAfter, List.flatMap_cons]
      refine List.Sublist.append ?_ (ih _)
      split
      · exact List.nil_sublist _
      · exact List.Sublist.refl _
  have hfl : ∀ {l l' : List String}, l <+ l' → l.flatMap c <+ l'.flatMap c := by
    intro l l' h
    induction h with
    | slnil => exact List.Sublist.refl _
    | cons a _ ih => rw [List.flatMap_cons]; exact ih.trans (List.sublist_append_right _ _)
    | cons_cons a _ ih => rw [List.flatMap_cons, List.flatMap_cons]; exact List.Sublist.append (List.Sublist.refl _) ih
  unfold Base.rem
  cases hc : s.cached with
  | none => exact (hsub _ _).trans (hfl hdrop)
  | some qd =>
    obtain ⟨q, d⟩ := qd
    cases hrest : s.fileList.drop s.index with
    | nil => exact List.nil_sublist _
    | cons p rest =>
      simp only
      rw [hrest] at hdrop
      split
      · rename_i hpq
        refine List.Sublist.trans ?_ (hfl hdrop)
        rw [List.flatMap_cons, hpq]
        exact List.Sublist.append (List.drop_sublist _ _) (hsub _ _)
      · exact (hsub _ _).trans (hfl hdrop)

end Verif.Append
