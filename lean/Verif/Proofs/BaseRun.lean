import Verif.Proofs.BaseBatch
import Mathlib.Data.List.Perm.Basic
import Mathlib.Data.List.GetD
/-!
# Lemmas about runs of the base scheduler: single pass, epochs, reset
-/

namespace Verif.Base
open Verif
variable {V D Key : Type}

/-! ### Non-looping -/

theorem getNext_nonloop {w : World V D Key} {cfg : Cfg} {c : String → List (Sample V)} (hloop : cfg.loop = false)
    (s : St D Key) (hi : Inv w c s) :
    (∃ x s', rem c s = x :: rem c s' ∧ Inv w c s' ∧ s'.fileList = s.fileList ∧ s'.key = s.key ∧
        ∀ fuel, s.fileList.length < fuel → getNext w cfg fuel s = some (.ret x, s')) ∨
    (rem c s = [] ∧ ∃ s', Inv w c s' ∧ s'.fileList = s.fileList ∧ s'.key = s.key ∧ rem c s' = [] ∧
        ∀ fuel, s.fileList.length < fuel → getNext w cfg fuel s = some (.stop, s')) := by
  rcases getNext_epoch (cfg := cfg) (s.fileList.length) s hi (by omega) with
    ⟨x, s', h1, h2, h3, h4, h5⟩ | ⟨h1, s', k, h2, h3, h4, h5, h6, h7, h8⟩
  · left; exact ⟨x, s', h1, h2, h3, h4, fun fuel hf => h5 fuel (by omega)⟩
  · right
    refine ⟨h1, s', h3, h4, h5, h7, ?_⟩
    intro fuel hf
    obtain ⟨f, rfl⟩ : ∃ f, fuel = (f + 1) + k := ⟨fuel - k - 1, by omega⟩
    rw [h8]
    have : ¬ s'.index < s'.fileList.length := by omega
    simp [getNext, iter, this, hloop]

theorem collect_nonloop {w : World V D Key} {cfg : Cfg} {c : String → List (Sample V)} (hloop : cfg.loop = false) :
    ∀ (n : Nat) (s : St D Key), Inv w c s → ∃ s', Inv w c s' ∧ rem c s' = (rem c s).drop n ∧
      s'.fileList = s.fileList ∧ s'.key = s.key ∧
      ∀ fuel, s.fileList.length < fuel → collect w cfg fuel n s = some (.ok ((rem c s).take n), s')
  | 0, s, hi => ⟨s, hi, by simp, rfl, rfl, fun _ _ => by simp [collect]⟩
  | n + 1, s, hi => by
    rcases getNext_nonloop hloop s hi with ⟨x, s', h1, h2, h3, h4, h5⟩ | ⟨h1, s', h2, h3, h4, h5, h6⟩
    · obtain ⟨s'', g1, g2, g3, g4, g5⟩ := collect_nonloop hloop n s' h2
      refine ⟨s'', g1, by rw [g2, h1]; simp, by rw [g3, h3], by rw [g4, h4], ?_⟩
      intro fuel hf
      simp only [collect, h5 fuel hf, g5 fuel (by rw [h3]; exact hf)]
      rw [h1]; simp
    · refine ⟨s', h2, by rw [h5, h1]; simp, h3, h4, ?_⟩
      intro fuel hf
      simp only [collect, h6 fuel hf]
      rw [h1]; simp

/-- `get_batch` without looping, in terms of the remaining samples. -/
theorem getBatch_nonloop {w : World V D Key} {cfg : Cfg} {c : String → List (Sample V)} (zero : V)
    (hloop : cfg.loop = false) (n : Nat) (s : St D Key) (hi : Inv w c s) :
    ∃ s', Inv w c s' ∧ rem c s' = (rem c s).drop n ∧ s'.fileList = s.fileList ∧ s'.key = s.key ∧
      ∀ fuel, s.fileList.length < fuel → getBatch zero w cfg fuel n s =
        some (if (rem c s).take n = [] then .error .stopIteration else assemble zero cfg ((rem c s).take n) n, s') := by
  obtain ⟨s', h1, h2, h3, h4, h5⟩ := collect_nonloop hloop n s hi
  refine ⟨s', h1, h2, h3, h4, ?_⟩
  intro fuel hf
  simp only [getBatch, h5 fuel hf, hloop]
  by_cases h : (rem c s).take n = []
  · simp [h]
  · have : ((rem c s).take n).isEmpty = false := by simpa using h
    rw [this]; simp [h]

theorem runBatches_nonloop {w : World V D Key} {cfg : Cfg} {c : String → List (Sample V)} (zero : V)
    (hloop : cfg.loop = false) : ∀ (ns : List Nat) (s : St D Key), Inv w c s →
    ∃ s', Inv w c s' ∧ rem c s' = (rem c s).drop ns.sum ∧ s'.fileList = s.fileList ∧ s'.key = s.key ∧
      ∀ fuel, s.fileList.length < fuel → runBatches zero w cfg fuel ns s =
        some ((takeBatches (rem c s) ns).zipWith (fun l n => if l = [] then .error .stopIteration else assemble zero cfg l n) ns, s')
  | [], s, hi => ⟨s, hi, by simp, rfl, rfl, fun _ _ => by simp [runBatches, takeBatches]⟩
  | n :: ns, s, hi => by
    obtain ⟨s', h1, h2, h3, h4, h5⟩ := getBatch_nonloop zero hloop n s hi
    obtain ⟨s'', g1, g2, g3, g4, g5⟩ := runBatches_nonloop zero hloop ns s' h1
    refine ⟨s'', g1, by rw [g2, h2]; simp, by rw [g3, h3], by rw [g4, h4], ?_⟩
    intro fuel hf
    simp only [runBatches, h5 fuel hf, g5 fuel (by rw [h3]; exact hf)]
    simp [takeBatches, h2]

/-! ### The initial state -/

theorem inv_fresh {w : World V D Key} {c : String → List (Sample V)} {fl : List String} {k : Key} {n : Nat}
    (hy : ∀ p ∈ fl, Yields w p (c p)) :
    Inv w c ({ fileList := fl, index := 0, cached := none, sliceIdx := n, key := k } : St D Key) :=
  ⟨hy, by simp⟩

theorem rem_fresh {c : String → List (Sample V)} (s : St D Key) (hc : s.cached = none) (hx : s.index = 0) :
    rem c s = streamAfter c none s.fileList := by simp [rem, hc, hx]

theorem streamAfter_go (c : String → List (Sample V)) (a : String) : ∀ l : List String,
    streamAfter c (some a) l = (dropRepeats.go a l).flatMap c
  | [] => by simp [streamAfter, dropRepeats.go]
  | b :: l => by
    have ih := streamAfter_go c b l
    by_cases h : b = a
    · subst h; simp [streamAfter, dropRepeats.go, ih]
    · have h' : ¬ a = b := fun e => h e.symm
      simp [streamAfter, dropRepeats.go, ih, h, h']

theorem streamAfter_none (c : String → List (Sample V)) (l : List String) :
    streamAfter c none l = (dropRepeats l).flatMap c := by
  cases l with
  | nil => simp [streamAfter, dropRepeats]
  | cons a l => simp [streamAfter, dropRepeats, streamAfter_go]

theorem dropRepeats_eq_self : ∀ l : List String, List.IsChain (· ≠ ·) l → dropRepeats l = l := by
  have go : ∀ (l : List String) (a : String), List.IsChain (· ≠ ·) (a :: l) → dropRepeats.go a l = l := by
    intro l
    induction l with
    | nil => intro a _; rfl
    | cons b l ih =>
      intro a h
      have h' := List.isChain_cons_cons.mp h
      have : ¬ b = a := fun e => h'.1 e.symm
      simp [dropRepeats.go, this, ih b h'.2]
  intro l h
  cases l with
  | nil => rfl
  | cons a l => simp [dropRepeats, go l a h]

/-- Every path of the list still occurs when repeats are dropped. -/
theorem mem_dropRepeats (l : List String) (p : String) : p ∈ dropRepeats l ↔ p ∈ l := by
  have go : ∀ (l : List String) (a : String), (p ∈ dropRepeats.go a l ∨ p = a) ↔ (p ∈ l ∨ p = a) := by
    intro l
    induction l with
    | nil => intro a; simp [dropRepeats.go]
    | cons b l ih =>
      intro a
      have := ih b
      by_cases h : b = a
      · subst h; simp only [dropRepeats.go, if_true, List.mem_cons]; tauto
      · simp only [dropRepeats.go, if_neg h, List.mem_cons]; tauto
  cases l with
  | nil => simp [dropRepeats]
  | cons a l => have := go l a; simp only [dropRepeats, List.mem_cons]; tauto

/-! ### Shuffles -/

theorem pick_perm {l : List String} {idx : List Nat} (h : idx.Perm (List.range l.length)) : (pick l idx).Perm l := by
  have h1 : (pick l idx).Perm (pick l (List.range l.length)) := h.map _
  have h2 : pick l (List.range l.length) = l := by
    unfold pick
    apply List.ext_getElem
    · simp
    · intro i h1 h2
      simp [List.getElem?_eq_getElem h2]
  rw [h2] at h1; exact h1

theorem shuffle_perm {w : World V D Key} {cfg : Cfg} (hp : cfg.randomize = true → PermOK w) (fl : List String) (k : Key) :
    (shuffle w cfg fl k).1.Perm fl := by
  unfold shuffle
  split
  · rename_i h; exact pick_perm (hp h _ _)
  · exact List.Perm.refl _

theorem inv_reset {w : World V D Key} {cfg : Cfg} {c : String → List (Sample V)} {s : St D Key}
    (hp : cfg.randomize = true → PermOK w) (hi : Inv w c s) : Inv w c (reset w cfg s) := by
  constructor
  · intro p hpm
    exact hi.yields p ((shuffle_perm hp s.fileList s.key).mem_iff.mp hpm)
  · intro q d h; simp [reset] at h

/-! ### Looping -/

/-- `k` times: shuffle the list and advance the key. -/
def shuffles (w : World V D Key) (cfg : Cfg) (x : List String × Key) : Nat → List String × Key
  | 0 => x
  | k + 1 => shuffles w cfg (shuffle w cfg x.1 x.2) k

/-- What a looping scheduler still delivers in the current epoch and the `K` following ones. -/
def loopStream (w : World V D Key) (cfg : Cfg) (c : String → List (Sample V)) (s : St D Key) (K : Nat) : List (Sample V) :=
  rem c s ++ (List.range K).flatMap (fun k => streamAfter c none (shuffles w cfg (s.fileList, s.key) (k + 1)).1)

theorem loopStream_succ (w : World V D Key) (cfg : Cfg) (c : String → List (Sample V)) (s : St D Key) (K : Nat) :
    loopStream w cfg c s (K + 1) = rem c s ++ loopStream w cfg c (reset w cfg s) K := by
  unfold loopStream
  rw [List.range_succ_eq_map, List.flatMap_cons, List.flatMap_map]
  have : rem c (reset w cfg s) = streamAfter c none (shuffle w cfg s.fileList s.key).1 :=
    rem_fresh _ rfl rfl
  rw [this]
  simp [shuffles, reset]

theorem loopStream_congr {w : World V D Key} {cfg : Cfg} {c : String → List (Sample V)} {s s' : St D Key} {x : Sample V}
    (hr : rem c s = x :: rem c s') (hl : s'.fileList = s.fileList) (hk : s'.key = s.key) (K : Nat) :
    loopStream w cfg c s K = x :: loopStream w cfg c s' K := by
  simp [loopStream, hr, hl, hk]

theorem iter_wrap {w : World V D Key} {cfg : Cfg} (hloop : cfg.loop = true) (s : St D Key)
    (h : s.fileList.length ≤ s.index) (hne : (reset w cfg s).fileList ≠ []) :
    iter w cfg s = iter w cfg (reset w cfg s) := by
  have h1 : ¬ s.index < s.fileList.length := by omega
  have h2 : (reset w cfg s).index < (reset w cfg s).fileList.length := by
    have : (reset w cfg s).index = 0 := rfl
    rw [this]; exact List.length_pos_iff.mpr hne
  rw [iter, if_neg h1, if_pos hloop, iter, if_pos h2]

theorem streamAfter_ne_nil {c : String → List (Sample V)} {l : List String} {p : String} (hp : p ∈ l) (hc : c p ≠ []) :
    streamAfter c none l ≠ [] := by
  rw [streamAfter_none]
  intro h
  rw [List.flatMap_eq_nil_iff] at h
  exact hc (h p ((mem_dropRepeats l p).mpr hp))

/-- A looping scheduler with something to deliver always delivers. -/
theorem getNext_loop {w : World V D Key} {cfg : Cfg} {c : String → List (Sample V)} (hloop : cfg.loop = true)
    (hp : cfg.randomize = true → PermOK w) (s : St D Key) (hi : Inv w c s) (hne : ∃ p ∈ s.fileList, c p ≠ []) :
    ∃ x s' j, Inv w c s' ∧ s'.fileList.Perm s.fileList ∧ (∀ K, loopStream w cfg c s (K + j) = x :: loopStream w cfg c s' K) ∧
      ∀ fuel, 2 * s.fileList.length ≤ fuel → getNext w cfg fuel s = some (.ret x, s') := by
  rcases getNext_epoch (cfg := cfg) (s.fileList.length) s hi (by omega) with
    ⟨x, s', h1, h2, h3, h4, h5⟩ | ⟨h1, s', k, h2, h3, h4, h5, h6, h7, h8⟩
  · exact ⟨x, s', 0, h2, by rw [h3], fun K => loopStream_congr h1 h3 h4 K, fun fuel hf => h5 fuel (by omega)⟩
  · have hperm : (reset w cfg s').fileList.Perm s.fileList := by
      rw [← h4]; exact shuffle_perm hp s'.fileList s'.key
    obtain ⟨p, hpm, hpc⟩ := hne
    have hpm' : p ∈ (reset w cfg s').fileList := hperm.mem_iff.mpr hpm
    have hlen : (reset w cfg s').fileList.length = s.fileList.length := hperm.length_eq
    have hrem : rem c (reset w cfg s') ≠ [] := by
      rw [rem_fresh _ rfl rfl]; exact streamAfter_ne_nil hpm' hpc
    rcases getNext_epoch (cfg := cfg) (s.fileList.length) (reset w cfg s') (inv_reset hp h3) (by omega) with
      ⟨x, s'', g1, g2, g3, g4, g5⟩ | ⟨g1, _⟩
    · refine ⟨x, s'', 1, g2, by rw [g3]; exact hperm, ?_, ?_⟩
      · intro K
        rw [loopStream_succ, h1, List.nil_append]
        have : reset w cfg s = reset w cfg s' := by simp [reset, h4, h5]
        rw [this]
        exact loopStream_congr g1 g3 g4 K
      · intro fuel hf
        have hpos : 0 < s.fileList.length := List.length_pos_of_mem hpm
        obtain ⟨f, rfl⟩ : ∃ f, fuel = (f + 1) + k := ⟨fuel - k - 1, by omega⟩
        rw [h8]
        have hw := iter_wrap hloop s' h2 (List.ne_nil_of_mem hpm')
        have : getNext w cfg (f + 1) s' = getNext w cfg (f + 1) (reset w cfg s') := by
          simp only [getNext, hw]
        rw [this]
        exact g5 (f + 1) (by omega)
    · exact absurd g1 hrem

theorem collect_loop {w : World V D Key} {cfg : Cfg} {c : String → List (Sample V)} (hloop : cfg.loop = true)
    (hp : cfg.randomize = true → PermOK w) : ∀ (n : Nat) (s : St D Key), Inv w c s → (∃ p ∈ s.fileList, c p ≠ []) →
    ∃ xs s' j, xs.length = n ∧ Inv w c s' ∧ s'.fileList.Perm s.fileList ∧
      (∀ K, loopStream w cfg c s (K + j) = xs ++ loopStream w cfg c s' K) ∧
      ∀ fuel, 2 * s.fileList.length ≤ fuel → collect w cfg fuel n s = some (.ok xs, s')
  | 0, s, hi, _ => ⟨[], s, 0, rfl, hi, List.Perm.refl _, fun _ => rfl, fun _ _ => by simp [collect]⟩
  | n + 1, s, hi, hne => by
    obtain ⟨x, s', j, h1, h2, h3, h4⟩ := getNext_loop hloop hp s hi hne
    obtain ⟨p, hpm, hpc⟩ := hne
    obtain ⟨xs, s'', j', g0, g1, g2, g3, g4⟩ := collect_loop hloop hp n s' h1 ⟨p, h2.mem_iff.mpr hpm, hpc⟩
    refine ⟨x :: xs, s'', j' + j, by simp [g0], g1, g2.trans h2, ?_, ?_⟩
    · intro K
      have : K + (j' + j) = (K + j') + j := by omega
      rw [this, h3, g3]; simp
    · intro fuel hf
      simp only [collect, h4 fuel hf, g4 fuel (by rw [h2.length_eq]; exact hf)]

theorem getBatch_loop {w : World V D Key} {cfg : Cfg} {c : String → List (Sample V)} (zero : V) (hloop : cfg.loop = true)
    (hp : cfg.randomize = true → PermOK w) (n : Nat) (hn : 0 < n) (s : St D Key) (hi : Inv w c s)
    (hne : ∃ p ∈ s.fileList, c p ≠ []) :
    ∃ xs s' j, xs.length = n ∧ Inv w c s' ∧ s'.fileList.Perm s.fileList ∧
      (∀ K, loopStream w cfg c s (K + j) = xs ++ loopStream w cfg c s' K) ∧
      ∀ fuel, 2 * s.fileList.length ≤ fuel → getBatch zero w cfg fuel n s = some (assemble zero cfg xs n, s') := by
  obtain ⟨xs, s', j, h0, h1, h2, h3, h4⟩ := collect_loop hloop hp n s hi hne
  refine ⟨xs, s', j, h0, h1, h2, h3, ?_⟩
  intro fuel hf
  simp only [getBatch, h4 fuel hf]
  have : xs.isEmpty = false := by
    cases xs with
    | nil => simp at h0; omega
    | cons => rfl
  rw [this]; simp

theorem runBatches_loop {w : World V D Key} {cfg : Cfg} {c : String → List (Sample V)} (zero : V) (hloop : cfg.loop = true)
    (hp : cfg.randomize = true → PermOK w) : ∀ (ns : List Nat) (s : St D Key), (∀ n ∈ ns, 0 < n) → Inv w c s →
    (∃ p ∈ s.fileList, c p ≠ []) →
    ∃ xs s' j, xs.length = ns.sum ∧ Inv w c s' ∧ s'.fileList.Perm s.fileList ∧
      (∀ K, loopStream w cfg c s (K + j) = xs ++ loopStream w cfg c s' K) ∧
      ∀ fuel, 2 * s.fileList.length ≤ fuel → runBatches zero w cfg fuel ns s =
        some ((takeBatches xs ns).zipWith (fun l n => assemble zero cfg l n) ns, s')
  | [], s, _, hi, _ => ⟨[], s, 0, rfl, hi, List.Perm.refl _, fun _ => rfl, fun _ _ => by simp [runBatches, takeBatches]⟩
  | n :: ns, s, hpos, hi, hne => by
    obtain ⟨x, s', j, h0, h1, h2, h3, h4⟩ := getBatch_loop zero hloop hp n (hpos n (by simp)) s hi hne
    obtain ⟨p, hpm, hpc⟩ := hne
    obtain ⟨xs, s'', j', g0, g1, g2, g3, g4⟩ := runBatches_loop zero hloop hp ns s' (fun m hm => hpos m (by simp [hm])) h1
      ⟨p, h2.mem_iff.mpr hpm, hpc⟩
    refine ⟨x ++ xs, s'', j' + j, by simp [g0, h0], g1, g2.trans h2, ?_, ?_⟩
    · intro K
      have : K + (j' + j) = (K + j') + j := by omega
      rw [this, h3, g3]; simp
    · intro fuel hf
      simp only [runBatches, h4 fuel hf, g4 fuel (by rw [h2.length_eq]; exact hf)]
      simp only [takeBatches, List.zipWith_cons_cons]
      rw [← h0, List.take_left, List.drop_left]

end Verif.Base
