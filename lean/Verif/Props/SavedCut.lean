import Verif.Model.SavedCut
import Verif.Spec.SavedCut
import Verif.Props.Saved
/-!
# C191: what a run of the main program that is cut short leaves behind
-/

namespace Verif.Saved
open Verif Scripts

theorem writes_append : ∀ a b : List Ev, writes (a ++ b) = writes a ++ writes b
  | [], _ => rfl
  | .save i j :: a, b => by simp [writes, writes_append a b]
  | .shutdown :: a, b => by simp [writes, writes_append a b]

theorem mem_writes : ∀ {evs : List Ev} {w : Nat × Nat × Part}, w ∈ writes evs ↔ .save w.1 w.2.1 ∈ evs
  | [], w => by simp [writes]
  | .shutdown :: evs, w => by simp [writes, mem_writes (evs := evs)]
  | .save i j :: evs, ⟨a, b, p⟩ => by
    simp only [writes, List.mem_cons, mem_writes (evs := evs), Ev.save.injEq, Prod.mk.injEq]
    cases p <;> simp

/-- A run that is not cut short leaves what C128 says. -/
theorem written_writes {α : Type} (x : Nat → Nat → Part → α) : ∀ (evs : List Ev) (fs : Files α), written x (writes evs) fs = saved x evs fs
  | [], _ => rfl
  | .shutdown :: evs, fs => by rw [saved, ← written_writes x evs fs]; rfl
  | .save i j :: evs, fs => by
    rw [saved, ← written_writes x evs _]
    simp only [writes, written, List.foldl_cons, saveSample]

theorem written_other {α : Type} (x : Nat → Nat → Part → α) : ∀ (ws : List (Nat × Nat × Part)) (fs : Files α) (name : List Char),
    (∀ w ∈ ws, name ≠ fileName w.1 w.2.1 w.2.2) → written x ws fs name = fs name
  | [], _, _, _ => rfl
  | w :: ws, fs, name, h => by
    have := written_other x ws (put fs (fileName w.1 w.2.1 w.2.2) (x w.1 w.2.1 w.2.2)) name (fun v hv => h v (by simp [hv]))
    show written x ws _ name = _
    rw [this]
    simp [put, h w (by simp)]

theorem written_mem {α : Type} (x : Nat → Nat → Part → α) : ∀ (ws : List (Nat × Nat × Part)) (fs : Files α) (w : Nat × Nat × Part),
    w ∈ ws ∨ fs (fileName w.1 w.2.1 w.2.2) = some (x w.1 w.2.1 w.2.2) → written x ws fs (fileName w.1 w.2.1 w.2.2) = some (x w.1 w.2.1 w.2.2)
  | [], fs, w, h => by simpa [written] using h
  | v :: ws, fs, w, h => by
    show written x ws (put fs _ _) _ = _
    apply written_mem x ws
    by_cases e : w = v
    · subst e; exact .inr (by simp [put])
    · rcases h with h | h
      · exact .inl (by simpa [e] using h)
      · right
        have : fileName w.1 w.2.1 w.2.2 ≠ fileName v.1 v.2.1 v.2.2 := fun hq => e (by
          obtain ⟨h1, h2, h3⟩ := C128_names hq
          exact Prod.ext h1 (Prod.ext h2 h3))
        simp [put, this, h]

theorem writes_save_sorted (i : Nat) : ∀ (k s : Nat), ((writes ((List.range' s k).map (Ev.save i))).Pairwise Before)
  | 0, _ => by simp [writes]
  | k + 1, s => by
    have ih := writes_save_sorted i k (s + 1)
    have hm : ∀ w ∈ writes ((List.range' (s + 1) k).map (Ev.save i)), w.1 = i ∧ s < w.2.1 := by
      intro w hw
      have := mem_writes.mp hw
      simp only [List.mem_map, List.mem_range'_1, Ev.save.injEq] at this
      obtain ⟨a, ha, h1, h2⟩ := this
      exact ⟨h1.symm, by omega⟩
    simp only [List.range'_succ, List.map_cons, writes, List.pairwise_cons, List.mem_cons]
    refine ⟨?_, ?_, ?_, ih⟩
    · rintro w (rfl | rfl | hw)
      · exact .inr ⟨rfl, .inr ⟨rfl, by simp [Part.place]⟩⟩
      · exact .inr ⟨rfl, .inr ⟨rfl, by simp [Part.place]⟩⟩
      · exact .inr ⟨(hm w hw).1.symm, .inl (hm w hw).2⟩
    · rintro w (rfl | hw)
      · exact .inr ⟨rfl, .inr ⟨rfl, by simp [Part.place]⟩⟩
      · exact .inr ⟨(hm w hw).1.symm, .inl (hm w hw).2⟩
    · intro w hw
      exact .inr ⟨(hm w hw).1.symm, .inl (hm w hw).2⟩

theorem savesOf_mem {next : Nat → NextRes} {num : Int} {a i j : Nat} (h : Ev.save i j ∈ savesOf next num a) :
    i = a ∧ ∃ size, next a = .ok size ∧ j < size ∧ (j : Int) < num := by
  unfold savesOf at h
  split at h
  · rename_i size hn
    simp only [List.mem_map, List.mem_range, Ev.save.injEq] at h
    obtain ⟨b, hb, rfl, rfl⟩ := h
    exact ⟨rfl, size, hn, by omega, by omega⟩
  · simp at h

theorem writes_savesOf_sorted (next : Nat → NextRes) (num : Int) (a k : Nat) : (writes ((savesOf next num a).take k)).Pairwise Before := by
  unfold savesOf
  split
  · rw [← List.map_take, List.take_range, List.range_eq_range']
    exact writes_save_sorted a _ 0
  · simp [writes]

theorem writes_batches_sorted (next : Nat → NextRes) (num : Int) : ∀ n, (writes ((List.range n).flatMap (savesOf next num))).Pairwise Before
  | 0 => by simp [writes]
  | n + 1 => by
    rw [List.range_succ, List.flatMap_append, writes_append, List.pairwise_append]
    refine ⟨writes_batches_sorted next num n, ?_, ?_⟩
    · have := writes_savesOf_sorted next num n (savesOf next num n).length
      simpa using this
    · intro v hv w hw
      have h1 := mem_writes.mp hv
      have h2 := mem_writes.mp hw
      simp only [List.mem_flatMap, List.mem_range, List.mem_singleton, exists_eq_left] at h1 h2
      obtain ⟨a, ha, h1⟩ := h1
      left
      rw [(savesOf_mem h1).1, (savesOf_mem h2).1]
      exact ha

/-- **C191**: the pictures of a run are written one by one in the order of batches, samples and image 1, image 2, quiver plot, and all of them were
wanted. -/
theorem C191_order (next : Nat → NextRes) (visualize : Nat → Nat → Option Exc) (answer : Nat → Bool) (num : Int) (fuel : Nat)
    (evs : List Ev) (r : Option Exc) (h : mainRun next visualize answer num fuel = some (evs, r)) :
    (writes evs).Pairwise Before ∧ (∀ w ∈ writes evs, Wanted next num w) ∧
      ∀ v w, Before v w → Wanted next num v → w ∈ writes evs → v ∈ writes evs := by
  obtain ⟨n, k, h1, _, h3, _, _⟩ := C79_main next visualize answer num fuel evs r h
  have hw : writes evs = writes ((List.range n).flatMap (savesOf next num)) ++ writes ((savesOf next num n).take k) := by
    rw [h1, writes_append, writes_append]
    simp [writes]
  have hin : ∀ w, w ∈ writes evs ↔ (w.1 < n ∧ Ev.save w.1 w.2.1 ∈ savesOf next num w.1) ∨ Ev.save w.1 w.2.1 ∈ (savesOf next num n).take k := by
    intro w
    rw [hw, List.mem_append, mem_writes, mem_writes]
    simp only [List.mem_flatMap, List.mem_range]
    refine or_congr ⟨?_, fun ⟨ha, hs⟩ => ⟨_, ha, hs⟩⟩ Iff.rfl
    rintro ⟨a, ha, hs⟩
    have := (savesOf_mem hs).1
    rw [this]
    exact ⟨ha, this ▸ hs⟩
  have htake : ∀ i j, Ev.save i j ∈ (savesOf next num n).take k ↔
      i = n ∧ j < k ∧ ∃ size, next n = .ok size ∧ j < size ∧ (j : Int) < num := by
    intro i j
    constructor
    · intro hm
      obtain ⟨h5, h6⟩ := savesOf_mem (List.mem_of_mem_take hm)
      refine ⟨h5, ?_, h6⟩
      obtain ⟨size, hn, _⟩ := h6
      unfold savesOf at hm
      rw [hn] at hm
      simp only [← List.map_take, List.take_range, List.mem_map, List.mem_range, Ev.save.injEq] at hm
      obtain ⟨b, hb, _, rfl⟩ := hm
      omega
    · rintro ⟨rfl, hk, size, hn, hj, hj'⟩
      unfold savesOf
      rw [hn]
      simp only [← List.map_take, List.take_range, List.mem_map, List.mem_range, Ev.save.injEq]
      exact ⟨j, by omega, trivial, rfl⟩
  have hof : ∀ i j size, next i = .ok size → j < size → (j : Int) < num → Ev.save i j ∈ savesOf next num i := by
    intro i j size hn hj hj'
    unfold savesOf
    rw [hn]
    simp only [List.mem_map, List.mem_range, Ev.save.injEq]
    exact ⟨j, by omega, trivial, rfl⟩
  refine ⟨?_, ?_, ?_⟩
  · rw [hw, List.pairwise_append]
    refine ⟨writes_batches_sorted next num n, writes_savesOf_sorted next num n k, ?_⟩
    intro v hv w hw
    have h1 := mem_writes.mp hv
    have h2 := (htake _ _).mp (mem_writes.mp hw)
    simp only [List.mem_flatMap, List.mem_range] at h1
    obtain ⟨a, ha, h1⟩ := h1
    left
    rw [(savesOf_mem h1).1, h2.1]
    exact ha
  · intro w hw
    rcases (hin w).mp hw with ⟨_, hs⟩ | hs
    · exact (savesOf_mem hs).2
    · obtain ⟨e, _, h6⟩ := (htake _ _).mp hs
      unfold Wanted
      rw [e]
      exact h6
  · rintro ⟨i, j, p⟩ ⟨i', j', p'⟩ hb ⟨size, hn, hj, hj'⟩ hw
    simp only [Before] at hb hn hj hj'
    rw [hin] at hw ⊢
    simp only at hw ⊢
    have hs := hof i j size hn hj hj'
    rcases hw with ⟨hi, _⟩ | hw
    · exact .inl ⟨by omega, hs⟩
    · obtain ⟨rfl, hk, _⟩ := (htake _ _).mp hw
      rcases hb with hb | ⟨rfl, hb⟩
      · exact .inl ⟨hb, hs⟩
      · exact .inr ((htake _ _).mpr ⟨rfl, by omega, size, hn, hj, hj'⟩)

theorem before_irrefl (w : Nat × Nat × Part) : ¬ Before w w := by unfold Before; omega

/-- **C191**: wherever a run is cut short, the pictures written before are complete; at most one file, the picture that was being written, is
damaged; everything else is as before the run. -/
theorem C191_cut_short {α : Type} (x : Nat → Nat → Part → α) (next : Nat → NextRes) (visualize : Nat → Nat → Option Exc) (answer : Nat → Bool)
    (num : Int) (fuel : Nat) (evs : List Ev) (r : Option Exc) (h : mainRun next visualize answer num fuel = some (evs, r))
    (m : Nat) (torn : Option (Option α)) (fs : Files α) :
    (∀ w ∈ (writes evs).take m, cutShort x (writes evs) m torn fs (fileName w.1 w.2.1 w.2.2) = some (x w.1 w.2.1 w.2.2)) ∧
      ∀ name, (∀ w ∈ (writes evs).take (m + 1), name ≠ fileName w.1 w.2.1 w.2.2) → cutShort x (writes evs) m torn fs name = fs name := by
  obtain ⟨hsort, _, _⟩ := C191_order next visualize answer num fuel evs r h
  generalize writes evs = ws at hsort ⊢
  constructor
  · intro w hw
    have hk := written_mem x (ws.take m) fs w (.inl hw)
    rcases hv : ws[m]? with _ | v <;> rcases torn with _ | y <;> simp only [cutShort, hv]
    case some.some =>
      have hne : fileName w.1 w.2.1 w.2.2 ≠ fileName v.1 v.2.1 v.2.2 := by
        intro hq
        obtain ⟨h1, h2, h3⟩ := C128_names hq
        have e : w = v := Prod.ext h1 (Prod.ext h2 h3)
        subst e
        obtain ⟨k, hk1, hk2⟩ := List.mem_iff_getElem.mp hw
        obtain ⟨hm, hv⟩ := List.getElem?_eq_some_iff.mp hv
        simp only [List.length_take] at hk1
        simp only [List.getElem_take] at hk2
        have := List.pairwise_iff_getElem.mp hsort k m (by omega) hm (by omega)
        rw [hk2, hv] at this
        exact before_irrefl w this
      simp only [hne, if_false]
      exact hk
    all_goals exact hk
  · intro name hname
    have hpre : written x (ws.take m) fs name = fs name := written_other x _ fs name (fun w hw => hname w (by
      rw [List.take_add_one]; exact List.mem_append_left _ hw))
    rcases hv : ws[m]? with _ | v <;> rcases torn with _ | y <;> simp only [cutShort, hv]
    case some.some =>
      have : name ≠ fileName v.1 v.2.1 v.2.2 := hname v (by rw [List.take_add_one, hv]; simp)
      simp only [this, if_false]
      exact hpre
    all_goals exact hpre

/-- **C191**: so a complete picture proves that all pictures wanted before it are complete: if the run wrote `w` before it was cut short, then also
every wanted picture before `w`. -/
theorem C191_no_gap {α : Type} (x : Nat → Nat → Part → α) (next : Nat → NextRes) (visualize : Nat → Nat → Option Exc) (answer : Nat → Bool)
    (num : Int) (fuel : Nat) (evs : List Ev) (r : Option Exc) (h : mainRun next visualize answer num fuel = some (evs, r))
    (m : Nat) (torn : Option (Option α)) (fs : Files α) (v w : Nat × Nat × Part) (hvw : Before v w) (hv : Wanted next num v)
    (hw : w ∈ (writes evs).take m) : cutShort x (writes evs) m torn fs (fileName v.1 v.2.1 v.2.2) = some (x v.1 v.2.1 v.2.2) := by
  obtain ⟨hsort, _, hdown⟩ := C191_order next visualize answer num fuel evs r h
  refine (C191_cut_short x next visualize answer num fuel evs r h m torn fs).1 v ?_
  obtain ⟨k, hk, hkv⟩ := List.mem_iff_getElem.mp (hdown v w hvw hv (List.mem_of_mem_take hw))
  obtain ⟨l, hl, hlw⟩ := List.mem_iff_getElem.mp hw
  simp only [List.length_take] at hl
  simp only [List.getElem_take] at hlw
  have hkl : k < l := by
    rcases Nat.lt_trichotomy k l with hlt | rfl | hgt
    · exact hlt
    · rw [hkv] at hlw; subst hlw; exact absurd hvw (before_irrefl v)
    · have := List.pairwise_iff_getElem.mp hsort l k (by omega) hk hgt
      rw [hkv, hlw] at this
      unfold Before at this hvw
      omega
  exact List.mem_iff_getElem.mpr ⟨k, by simp only [List.length_take]; omega, by simpa using hkv⟩

/-- **C191**: a run that is not cut short leaves what its events say (C128). -/
theorem C191_whole {α : Type} (x : Nat → Nat → Part → α) (evs : List Ev) (torn : Option (Option α)) (fs : Files α) :
    cutShort x (writes evs) (writes evs).length torn fs = saved x evs fs := by
  unfold cutShort
  simp [written_writes]

/-- Three samples in two batches, cut short in the quiver plot of the second sample: that file is damaged, the later sample keeps its old picture. -/
example : (mainRun (fun i => if i = 0 then .ok 2 else if i = 1 then .ok 1 else .error .stopIteration) (fun _ _ => none) (fun _ => true) 2 5).map
    (fun r => ((writes r.1).length, [fileName 0 0 .quiver, fileName 0 1 .image2, fileName 0 1 .quiver, fileName 1 0 .image1].map
      (cutShort (fun i j _ => 10 * i + j) (writes r.1) 5 (some none) (fun _ => some 99)))) =
    some (9, [some 0, some 1, none, some 99]) := by decide +kernel

/-- The second sample cannot be drawn: its pictures are the last of the run. -/
example : (mainRun (fun i => if i = 0 then .ok 3 else .error .stopIteration) (fun _ j => if j = 1 then some .valueError else none) (fun _ => true) 3 5).map
    (fun r => (r.2, writes r.1)) = some (some .valueError,
      [(0, 0, .image1), (0, 0, .image2), (0, 0, .quiver), (0, 1, .image1), (0, 1, .image2), (0, 1, .quiver)]) := by decide +kernel

end Verif.Saved
