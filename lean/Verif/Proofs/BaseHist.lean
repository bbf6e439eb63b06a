import Verif.Proofs.BaseMore
import Verif.Model.Key
/-!
# Histories of operations: file order and key
-/

namespace Verif.Base
open Verif
variable {V D Key : Type}

theorem shuffles_succ (w : World V D Key) (cfg : Cfg) : ∀ (k : Nat) (x : List String × Key),
    shuffles w cfg x (k + 1) = shuffle w cfg (shuffles w cfg x k).1 (shuffles w cfg x k).2
  | 0, x => rfl
  | k + 1, x => by
    show shuffles w cfg (shuffle w cfg x.1 x.2) (k + 1) = _
    rw [shuffles_succ w cfg k]
    rfl

theorem shuffles_add (w : World V D Key) (cfg : Cfg) : ∀ (k j : Nat) (x : List String × Key),
    shuffles w cfg (shuffles w cfg x k) j = shuffles w cfg x (k + j)
  | k, 0, x => rfl
  | k, j + 1, x => by
    rw [shuffles_succ, shuffles_add w cfg k j, ← Nat.add_assoc, shuffles_succ]

theorem shuffles_random (w : World V D Key) (cfg : Cfg) (h : cfg.randomize = true) (fl : List String) (key : Key) :
    ∀ k, shuffles w cfg (fl, key) k = (epochOrder w key fl k, epochKey w key k)
  | 0 => rfl
  | k + 1 => by
    rw [shuffles_succ, shuffles_random w cfg h fl key k]
    simp [shuffle, h, epochOrder, epochKey, pick]

theorem shuffles_fixed (w : World V D Key) (cfg : Cfg) (h : cfg.randomize = false) (x : List String × Key) :
    ∀ k, shuffles w cfg x k = x
  | 0 => rfl
  | k + 1 => by
    rw [shuffles_succ, shuffles_fixed w cfg h x k]
    simp [shuffle, h]

/-- `Later w cfg s s'`: `s'` has the file order and the key of `s` after some number of shuffles. -/
def Later (w : World V D Key) (cfg : Cfg) (s s' : St D Key) : Prop :=
  ∃ k, (s'.fileList, s'.key) = shuffles w cfg (s.fileList, s.key) k

theorem Later.refl (w : World V D Key) (cfg : Cfg) (s : St D Key) : Later w cfg s s := ⟨0, rfl⟩

theorem Later.trans {w : World V D Key} {cfg : Cfg} {s s' s'' : St D Key} (h : Later w cfg s s') (h' : Later w cfg s' s'') :
    Later w cfg s s'' := by
  obtain ⟨k, hk⟩ := h
  obtain ⟨j, hj⟩ := h'
  exact ⟨k + j, by rw [hj, hk, shuffles_add]⟩

theorem Later.of_eq {w : World V D Key} {cfg : Cfg} {s s' : St D Key} (h : s'.fileList = s.fileList) (h' : s'.key = s.key) :
    Later w cfg s s' := ⟨0, by rw [h, h']; rfl⟩

theorem later_reset (w : World V D Key) (cfg : Cfg) (s : St D Key) : Later w cfg s (reset w cfg s) := ⟨1, rfl⟩

/-- The state a step ends in. -/
def Step.state : Step V D Key → St D Key
  | .cont s => s
  | .ret _ s => s
  | .stop s => s
  | .raise _ s => s

theorem takeSlice_later (w : World V D Key) (cfg : Cfg) (s : St D Key) (p : String) (d : D) :
    Later w cfg s (takeSlice w s p d).state := by
  unfold takeSlice
  split <;> exact Later.of_eq rfl rfl

theorem body_later (w : World V D Key) (cfg : Cfg) (s : St D Key) : Later w cfg s (body w s).state := by
  unfold body
  split
  · exact Later.refl _ _ _
  · split
    · split
      · exact takeSlice_later _ _ _ _ _
      · split
        · rename_i d' _
          exact (Later.of_eq (s' := { s with cached := some (_, d'), sliceIdx := 0 }) rfl rfl).trans (takeSlice_later _ _ _ _ _)
        · exact Later.of_eq rfl rfl
    · split
      · rename_i d' _
        exact (Later.of_eq (s' := { s with cached := some (_, d'), sliceIdx := 0 }) rfl rfl).trans (takeSlice_later _ _ _ _ _)
      · exact Later.of_eq rfl rfl

theorem iter_later (w : World V D Key) (cfg : Cfg) (s : St D Key) : Later w cfg s (iter w cfg s).state := by
  unfold iter
  split
  · exact body_later _ _ _
  · split
    · exact (later_reset _ _ _).trans (body_later _ _ _)
    · exact Later.refl _ _ _

theorem getNext_later {w : World V D Key} {cfg : Cfg} : ∀ (fuel : Nat) (s : St D Key) {r s'},
    getNext w cfg fuel s = some (r, s') → Later w cfg s s'
  | 0, s, r, s', h => by simp [getNext] at h
  | fuel + 1, s, r, s', h => by
    have hl := iter_later w cfg s
    simp only [getNext] at h
    split at h
    all_goals
      rename_i hi
      rw [hi] at hl
    · exact hl.trans (getNext_later fuel _ h)
    all_goals
      simp only [Option.some.injEq, Prod.mk.injEq] at h
      rw [← h.2]; exact hl

theorem collect_later {w : World V D Key} {cfg : Cfg} : ∀ (n fuel : Nat) (s : St D Key) {r s'},
    collect w cfg fuel n s = some (r, s') → Later w cfg s s'
  | 0, fuel, s, r, s', h => by
    simp only [collect, Option.some.injEq, Prod.mk.injEq] at h
    rw [← h.2]; exact Later.refl _ _ _
  | n + 1, fuel, s, r, s', h => by
    simp only [collect] at h
    cases hg : getNext w cfg fuel s with
    | none => rw [hg] at h; simp at h
    | some res =>
      obtain ⟨nx, s0⟩ := res
      rw [hg] at h
      have h0 := getNext_later fuel s hg
      cases nx with
      | stop => simp only [Option.some.injEq, Prod.mk.injEq] at h; rw [← h.2]; exact h0
      | raise e =>
        simp only at h
        split at h <;> (simp only [Option.some.injEq, Prod.mk.injEq] at h; rw [← h.2]; exact h0)
      | ret x =>
        simp only at h
        cases hc : collect w cfg fuel n s0 with
        | none => rw [hc] at h; simp at h
        | some res' =>
          obtain ⟨r', s1⟩ := res'
          rw [hc] at h
          have h1 := collect_later n fuel s0 hc
          cases r' <;> (simp only [Option.some.injEq, Prod.mk.injEq] at h; rw [← h.2]; exact h0.trans h1)

theorem getBatch_later {zero : V} {w : World V D Key} {cfg : Cfg} {n fuel : Nat} {s : St D Key} {r s'}
    (h : getBatch zero w cfg fuel n s = some (r, s')) : Later w cfg s s' := by
  unfold getBatch at h
  cases hc : collect w cfg fuel n s with
  | none => rw [hc] at h; simp at h
  | some res =>
    obtain ⟨r', s1⟩ := res
    rw [hc] at h
    have h1 := collect_later n fuel s hc
    cases r' with
    | error e => simp only [Option.some.injEq, Prod.mk.injEq] at h; rw [← h.2]; exact h1
    | ok b =>
      simp only at h
      split at h
      · split at h
        · simp only [Option.some.injEq, Prod.mk.injEq] at h; rw [← h.2]; exact h1.trans (later_reset _ _ _)
        · simp only [Option.some.injEq, Prod.mk.injEq] at h; rw [← h.2]; exact h1
      · simp only [Option.some.injEq, Prod.mk.injEq] at h; rw [← h.2]; exact h1

theorem runOps_later {zero : V} {w : World V D Key} {cfg : Cfg} {fuel : Nat} : ∀ (ops : List Op) (s : St D Key) {s'},
    runOps zero w cfg fuel ops s = some s' → Later w cfg s s'
  | [], s, s', h => by simp only [runOps, Option.some.injEq] at h; rw [h]; exact Later.refl _ _ _
  | .reset :: ops, s, s', h => (later_reset w cfg s).trans (runOps_later ops _ h)
  | .getBatch n :: ops, s, s', h => by
    simp only [runOps] at h
    split at h
    · simp at h
    · rename_i hb
      exact (getBatch_later hb).trans (runOps_later ops _ h)

theorem init_later {zero : V} {w : World V D Key} {cfg : Cfg} {fuel : Nat} {fl : List String} {key : Key} {ops : List Op}
    {s' : St D Key} (h : runOps zero w cfg fuel ops (init w cfg fl key) = some s') :
    ∃ k, (s'.fileList, s'.key) = shuffles w cfg (fl, key) (k + 1) := by
  obtain ⟨k, hk⟩ := runOps_later ops _ h
  refine ⟨k, ?_⟩
  rw [hk]
  have : ((init w cfg fl key : St D Key).fileList, (init w cfg fl key : St D Key).key) = shuffles w cfg (fl, key) 1 := rfl
  rw [this, shuffles_add, Nat.add_comm]

theorem epochOrder_perm {w : World V D Key} (hp : PermOK w) (key : Key) (fl : List String) :
    ∀ k, (epochOrder w key fl k).Perm fl
  | 0 => List.Perm.refl _
  | k + 1 => (pick_perm (hp _ _)).trans (epochOrder_perm hp key fl k)

/-- The order of the `k`-th epoch (counted from 0) of a looping scheduler. -/
theorem shuffles_order (w : World V D Key) (cfg : Cfg) (fl : List String) (key : Key) (k : Nat) :
    (shuffles w cfg (fl, key) (k + 1)).1 = if cfg.randomize then epochOrder w key fl (k + 1) else fl := by
  cases h : cfg.randomize with
  | true => rw [shuffles_random w cfg h]; rfl
  | false => rw [shuffles_fixed w cfg h]; rfl

theorem loopStream_init (w : World V D Key) (cfg : Cfg) (c : String → List (Sample V)) (fl : List String) (key : Key) (K : Nat) :
    loopStream w cfg c (init w cfg fl key : St D Key) K =
      (List.range (K + 1)).flatMap (fun k => streamAfter c none (shuffles w cfg (fl, key) (k + 1)).1) := by
  rw [List.range_succ_eq_map, List.flatMap_cons, List.flatMap_map]
  unfold loopStream
  congr 1

/-! ### No sample at all -/

theorem rem_nothing (s : St D Key) : rem (fun _ => ([] : List (Sample V))) s = [] := by
  have h : ∀ (l : List String) (p : Option String), streamAfter (fun _ => ([] : List (Sample V))) p l = [] := by
    intro l
    induction l with
    | nil => intro p; rfl
    | cons a l ih => intro p; simp [streamAfter, ih]
  unfold rem
  split <;> (try split) <;> simp [h]

theorem getNext_nothing {w : World V D Key} {cfg : Cfg} (hloop : cfg.loop = true) (hp : cfg.randomize = true → PermOK w) :
    ∀ (fuel : Nat) (s : St D Key), Inv w (fun _ => []) s → s.fileList ≠ [] → getNext w cfg fuel s = none
  | 0, _, _, _ => rfl
  | fuel + 1, s, hi, hne => by
    have key : ∀ s0 : St D Key, Inv w (fun _ => []) s0 → s0.fileList ≠ [] → s0.index < s0.fileList.length →
        ∃ s1, body w s0 = .cont s1 ∧ Inv w (fun _ => []) s1 ∧ s1.fileList ≠ [] := by
      intro s0 hi0 hne0 hlt
      have hg := body_good hi0 hlt
      generalize hb : body w s0 = st at hg
      cases hg with
      | ret x s' h => rw [rem_nothing] at h; simp at h
      | cont s' h hi' hl => exact ⟨s', rfl, hi', by rw [hl]; exact hne0⟩
    have : ∃ s1, iter w cfg s = .cont s1 ∧ Inv w (fun _ => []) s1 ∧ s1.fileList ≠ [] := by
      unfold iter
      split
      · rename_i hlt; exact key s hi hne hlt
      · have hperm := shuffle_perm (w := w) (cfg := cfg) hp s.fileList s.key
        have hne' : (reset w cfg s).fileList ≠ [] := by
          intro h
          exact hne (List.Perm.nil_eq (h ▸ hperm)).symm
        exact key _ (inv_reset hp hi) hne' (List.length_pos_iff.mpr hne')
    obtain ⟨s1, h1, h2, h3⟩ := this
    simp only [getNext, h1]
    exact getNext_nothing hloop hp fuel s1 h2 h3

/-! ### Unreadable files -/

theorem chain_tail {a : String} {l : List String} (h : List.IsChain (· ≠ ·) (a :: l)) : List.IsChain (· ≠ ·) l := by
  cases l with
  | nil => simp
  | cons b l => exact (List.isChain_cons_cons.mp h).2

theorem streamAfter_filter {c : String → List (Sample V)} {ok : String → Bool} (hbad : ∀ p, ok p = false → c p = []) :
    ∀ (l : List String) (p : String), (if ok p then List.IsChain (· ≠ ·) (p :: l.filter ok) else List.IsChain (· ≠ ·) (l.filter ok)) →
      streamAfter c (some p) l = (l.filter ok).flatMap c
  | [], p, _ => by simp [streamAfter]
  | b :: l, p, h => by
    cases hb : ok b with
    | false =>
      have ih := streamAfter_filter hbad l b
      simp only [hb, List.filter_cons, Bool.false_eq_true, if_false] at h ih ⊢
      have : List.IsChain (· ≠ ·) (l.filter ok) := by
        split at h
        · exact chain_tail h
        · exact h
      simp only [streamAfter, ih this, hbad b hb]
      split <;> simp
    | true =>
      have ih := streamAfter_filter hbad l b
      simp only [hb, List.filter_cons, if_true] at h ih ⊢
      have hne : ¬ (some p = some b) := by
        intro hpb
        simp only [Option.some.injEq] at hpb
        subst hpb
        rw [if_pos hb] at h
        simp at h
      have hch : List.IsChain (· ≠ ·) (b :: l.filter ok) := by
        split at h
        · exact chain_tail h
        · exact h
      simp [streamAfter, hne, ih hch]

theorem streamAfter_none_filter {c : String → List (Sample V)} {ok : String → Bool} (hbad : ∀ p, ok p = false → c p = [])
    (l : List String) (h : List.IsChain (· ≠ ·) (l.filter ok)) : streamAfter c none l = (l.filter ok).flatMap c := by
  cases l with
  | nil => rfl
  | cons a l =>
    cases ha : ok a with
    | false =>
      simp only [ha, List.filter_cons, Bool.false_eq_true, if_false] at h ⊢
      have := streamAfter_filter hbad l a (by simpa [ha] using h)
      simp [streamAfter, this, hbad a ha]
    | true =>
      simp only [ha, List.filter_cons, if_true] at h ⊢
      have := streamAfter_filter hbad l a (by simpa [ha] using h)
      simp [streamAfter, this]

/-! ### Keys -/

theorem epochKey_depth (w : World V D KeyTerm) (hs : ∀ k, w.split k = k.split2) (key : KeyTerm) :
    ∀ n, (epochKey w key n).depth = key.depth + n
  | 0 => rfl
  | n + 1 => by
    simp only [epochKey, hs, KeyTerm.split2, KeyTerm.depth, epochKey_depth w hs key n]; omega

end Verif.Base
