import Verif.Spec.Base
import Mathlib.Data.List.Basic
import Mathlib.Tactic.Linarith
/-!
# Lemmas about the base scheduler
-/

namespace Verif.Base
open Verif
variable {V D Key : Type}

/-- Samples still to come from the list `l` when the previously visited path is `prev`. -/
def streamAfter (c : String → List (Sample V)) : Option String → List String → List (Sample V)
  | _, [] => []
  | prev, p :: l => (if prev = some p then [] else c p) ++ streamAfter c (some p) l

/-- Samples still to come in the current pass through the file list. -/
def rem (c : String → List (Sample V)) (s : St D Key) : List (Sample V) :=
  match s.cached, s.fileList.drop s.index with
  | some (q, _), p :: rest =>
    if p = q then (c q).drop s.sliceIdx ++ streamAfter c (some q) rest else streamAfter c (some q) (p :: rest)
  | some _, [] => []
  | none, l => streamAfter c none l

/-- The invariant: contents are as described by `c`, and the cache is coherent. -/
structure Inv (w : World V D Key) (c : String → List (Sample V)) (s : St D Key) : Prop where
  yields : ∀ p ∈ s.fileList, Yields w p (c p)
  cache : ∀ q d, s.cached = some (q, d) → w.load q = .ok d ∧ Yields w q (c q) ∧ s.sliceIdx ≤ (c q).length

theorem yields_ok {w : World V D Key} {p : String} {l : List (Sample V)} {d : D} (h : Yields w p l)
    (hd : w.load p = .ok d) :
    (∀ i (h : i < l.length), w.slice p d i = .ok l[i]) ∧ w.slice p d l.length = .ended := by
  unfold Yields at h; rw [hd] at h; exact h

theorem yields_err {w : World V D Key} {p : String} {l : List (Sample V)} {e : Exc} (h : Yields w p l)
    (hd : w.load p = .error e) : l = [] := by
  unfold Yields at h; rw [hd] at h; exact h

/-- What one pass of the loop body does in terms of the remaining samples. -/
inductive Good (w : World V D Key) (c : String → List (Sample V)) (s : St D Key) : Step V D Key → Prop
  | ret (x s') (h : rem c s = x :: rem c s') (hi : Inv w c s') (hl : s'.fileList = s.fileList) (hk : s'.key = s.key)
      (hix : s'.index = s.index) : Good w c s (.ret x s')
  | cont (s') (h : rem c s' = rem c s) (hi : Inv w c s') (hl : s'.fileList = s.fileList) (hk : s'.key = s.key)
      (hix : s'.index = s.index + 1) : Good w c s (.cont s')

theorem takeSlice_good {w : World V D Key} {c : String → List (Sample V)} {s s0 : St D Key} {q : String} {d : D}
    {rest : List String} (hc : s.cached = some (q, d)) (hd : s.fileList.drop s.index = q :: rest) (hi : Inv w c s)
    (hr : rem c s = rem c s0) (hl : s.fileList = s0.fileList) (hk : s.key = s0.key) (hix : s.index = s0.index) :
    Good w c s0 (takeSlice w s q d) := by
  obtain ⟨hload, hy, hle⟩ := hi.cache q d hc
  obtain ⟨h1, h2⟩ := yields_ok hy hload
  have hrem : rem c s = (c q).drop s.sliceIdx ++ streamAfter c (some q) rest := by simp [rem, hc, hd]
  unfold takeSlice
  rcases Nat.lt_or_ge s.sliceIdx (c q).length with hlt | hge
  · rw [h1 _ hlt]
    refine Good.ret _ _ ?_ ⟨hi.yields, ?_⟩ hl hk hix
    · rw [← hr, hrem, List.drop_eq_getElem_cons hlt]
      simp only [rem, hc, hd, if_true, List.cons_append]
    · intro q' d' h'
      simp only [hc, Option.some.injEq, Prod.mk.injEq] at h'
      obtain ⟨rfl, rfl⟩ := h'
      exact ⟨hload, hy, hlt⟩
  · have heq : s.sliceIdx = (c q).length := Nat.le_antisymm hle hge
    have h2' : w.slice q d s.sliceIdx = .ended := by rw [heq]; exact h2
    rw [h2']
    refine Good.cont _ ?_ ⟨hi.yields, ?_⟩ hl hk (by simp [hix])
    · rw [← hr, hrem, heq, List.drop_length, List.nil_append]
      have hd' : s.fileList.drop (s.index + 1) = rest := by
        rw [← List.drop_drop, hd]; simp
      simp only [rem, hc, hd']
      cases rest with
      | nil => simp [streamAfter]
      | cons p rest' =>
        by_cases hp : p = q
        · subst hp; simp [streamAfter]
        · simp [hp]
    · intro q' d' h'
      exact hi.cache q' d' h'

theorem body_good {w : World V D Key} {c : String → List (Sample V)} {s : St D Key} (hi : Inv w c s)
    (hlt : s.index < s.fileList.length) : Good w c s (body w s) := by
  have hd := List.drop_eq_getElem_cons hlt
  generalize hp : s.fileList[s.index] = path at hd
  have hmem : path ∈ s.fileList := by rw [← hp]; exact List.getElem_mem hlt
  have hget : s.fileList[s.index]? = some path := by rw [List.getElem?_eq_getElem hlt, hp]
  have hy := hi.yields path hmem
  -- loading a file that is not the cached one
  have key : rem c s = streamAfter c none (path :: s.fileList.drop (s.index + 1)) →
      Good w c s (match w.load path with
        | .ok d' => takeSlice w { s with cached := some (path, d'), sliceIdx := 0 } path d'
        | .error _ => .cont { s with cached := none, index := s.index + 1 }) := by
    intro hr
    cases hload : w.load path with
    | error e =>
      have hnil := yields_err hy hload
      refine Good.cont _ ?_ ⟨hi.yields, by simp⟩ rfl rfl rfl
      rw [hr]
      simp only [rem, streamAfter, hnil, if_neg (by simp : ¬ (none = some path)), List.nil_append]
      cases hrest : s.fileList.drop (s.index + 1) with
      | nil => rfl
      | cons p rest =>
        by_cases h : path = p
        · subst h; simp [streamAfter, hnil]
        · simp [streamAfter, h]
    | ok d' =>
      refine takeSlice_good (s := { s with cached := some (path, d'), sliceIdx := 0 }) rfl hd ⟨hi.yields, ?_⟩ ?_ rfl rfl rfl
      · intro q d h
        simp only [Option.some.injEq, Prod.mk.injEq] at h
        obtain ⟨rfl, rfl⟩ := h
        exact ⟨hload, hy, Nat.zero_le _⟩
      · rw [hr]; simp [rem, hd, streamAfter]
  unfold body
  rw [hget]
  cases hc : s.cached with
  | none => exact key (by simp [rem, hc, hd])
  | some qd =>
    obtain ⟨q, d⟩ := qd
    by_cases hq : q = path
    · subst hq
      simp only [if_true]
      exact takeSlice_good hc hd hi rfl rfl rfl rfl
    · simp only [if_neg hq]
      refine key ?_
      have : ¬ path = q := fun h => hq h.symm
      simp [rem, hc, hd, this, streamAfter, hq]

/-- Within one pass through the list: either a sample is delivered, or the pass ends. -/
theorem getNext_epoch {w : World V D Key} {cfg : Cfg} {c : String → List (Sample V)} :
    ∀ (m : Nat) (s : St D Key), Inv w c s → s.fileList.length - s.index ≤ m →
    (∃ x s', rem c s = x :: rem c s' ∧ Inv w c s' ∧ s'.fileList = s.fileList ∧ s'.key = s.key ∧
        ∀ fuel, m ≤ fuel → getNext w cfg fuel s = some (.ret x, s')) ∨
    (rem c s = [] ∧ ∃ s' k, s'.fileList.length ≤ s'.index ∧ Inv w c s' ∧ s'.fileList = s.fileList ∧
        s'.key = s.key ∧ k ≤ m ∧ rem c s' = [] ∧ ∀ fuel, getNext w cfg (fuel + k) s = getNext w cfg fuel s') := by
  intro m
  induction m with
  | zero =>
    intro s hi hm
    right
    have hle : s.fileList.length ≤ s.index := by omega
    have hnil : rem c s = [] := by
      have := List.drop_of_length_le hle
      unfold rem; rw [this]; cases s.cached <;> simp [streamAfter]
    exact ⟨hnil, s, 0, hle, hi, rfl, rfl, Nat.le_refl _, hnil, fun _ => rfl⟩
  | succ m ih =>
    intro s hi hm
    rcases Nat.lt_or_ge s.index s.fileList.length with hlt | hge
    · have hg := body_good hi hlt
      have hiter : iter w cfg s = body w s := by simp [iter, hlt]
      generalize hb : body w s = st at hg
      cases hg with
      | ret x s' h hi' hl hk hix =>
        left
        refine ⟨x, s', h, hi', hl, hk, ?_⟩
        intro fuel hf
        obtain ⟨f, rfl⟩ : ∃ f, fuel = f + 1 := ⟨fuel - 1, by omega⟩
        simp [getNext, hiter, hb]
      | cont s' h hi' hl hk hix =>
        have hm' : s'.fileList.length - s'.index ≤ m := by rw [hl, hix]; omega
        rcases ih s' hi' hm' with ⟨x, s'', h1, h2, h3, h4, h5⟩ | ⟨h1, s'', k, h2, h3, h4, h5, h6, h7, h8⟩
        · left
          refine ⟨x, s'', by rw [← h, h1], h2, by rw [h3, hl], by rw [h4, hk], ?_⟩
          intro fuel hf
          obtain ⟨f, rfl⟩ : ∃ f, fuel = f + 1 := ⟨fuel - 1, by omega⟩
          simp only [getNext, hiter, hb]
          exact h5 f (by omega)
        · right
          refine ⟨by rw [← h, h1], s'', k + 1, h2, h3, by rw [h4, hl], by rw [h5, hk], by omega, h7, ?_⟩
          intro fuel
          have : fuel + (k + 1) = (fuel + k) + 1 := by omega
          rw [this]
          simp only [getNext, hiter, hb]
          exact h8 fuel
    · right
      have hnil : rem c s = [] := by
        have := List.drop_of_length_le hge
        unfold rem; rw [this]; cases s.cached <;> simp [streamAfter]
      exact ⟨hnil, s, 0, hge, hi, rfl, rfl, Nat.zero_le _, hnil, fun _ => rfl⟩

end Verif.Base
