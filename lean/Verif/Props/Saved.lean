import Verif.Model.Saved
import Verif.Props.Scripts
import Verif.Props.ForLoop
/-!
# C128: the pictures that the main program saves
-/

namespace Verif.Saved
open Verif Scripts

/-- Different numbers are written differently. -/
theorem toDigits_inj : ∀ {m n : Nat}, Nat.toDigits 10 m = Nat.toDigits 10 n → m = n := by
  intro m
  induction m using Nat.strong_induction_on with
  | _ m ih =>
    intro n h
    rw [Nat.toDigits_eq_if (by decide) (n := m), Nat.toDigits_eq_if (by decide) (n := n)] at h
    have hd : ∀ a, a < 10 → ∀ b, b < 10 → Nat.digitChar a = Nat.digitChar b → a = b := by decide
    split at h <;> split at h
    · exact hd _ (by omega) _ (by omega) (by simpa using h)
    · have := congrArg List.length h
      have h2 := Nat.length_toDigits_pos (b := 10) (n := n / 10)
      simp at this
    · have := congrArg List.length h
      have h2 := Nat.length_toDigits_pos (b := 10) (n := m / 10)
      simp at this
    · have h1 := List.append_inj' h (by simp)
      have h3 := ih (m / 10) (by omega) h1.1
      have h4 := hd (m % 10) (by omega) (n % 10) (by omega) (by simpa using h1.2)
      omega

/-- Text up to the first underscore. -/
theorem split_underscore {a b : Nat} {r s : List Char} (h : Nat.toDigits 10 a ++ '_' :: r = Nat.toDigits 10 b ++ '_' :: s) : a = b ∧ r = s := by
  have ha := @Nat.underscore_not_in_toDigits a
  have hb := @Nat.underscore_not_in_toDigits b
  have key : ∀ {l l' r s : List Char}, '_' ∉ l → '_' ∉ l' → l ++ '_' :: r = l' ++ '_' :: s → l = l' ∧ r = s := by
    intro l
    induction l with
    | nil =>
      intro l' r s _ h2 h
      cases l' with
      | nil => simpa using h
      | cons c l' =>
        simp only [List.nil_append, List.cons_append, List.cons.injEq] at h
        exact absurd (by rw [← h.1]; simp) h2
    | cons c l ih =>
      intro l' r s h1 h2 h
      cases l' with
      | nil =>
        simp only [List.nil_append, List.cons_append, List.cons.injEq] at h
        exact absurd (by simp [h.1]) h1
      | cons c' l' =>
        simp only [List.cons_append, List.cons.injEq] at h
        obtain ⟨h3, h4⟩ := ih (fun hm => h1 (by simp [hm])) (fun hm => h2 (by simp [hm])) h.2
        exact ⟨by rw [h.1, h3], h4⟩
  obtain ⟨h1, h2⟩ := key ha hb h
  exact ⟨toDigits_inj h1, h2⟩

/-- **C128**: no two pictures have the same name. -/
theorem C128_names {i j i' j' : Nat} {p p' : Part} (h : fileName i j p = fileName i' j' p') : i = i' ∧ j = j' ∧ p = p' := by
  unfold fileName at h
  simp only [List.append_assoc] at h
  have h1 := List.append_cancel_left h
  obtain ⟨h2, h3⟩ := split_underscore (r := "sample_".toList ++ (Nat.toDigits 10 j ++ suffix p)) (s := "sample_".toList ++ (Nat.toDigits 10 j' ++ suffix p')) h1
  have h4 := List.append_cancel_left h3
  have hs : ∀ q, ∃ t, suffix q = '_' :: t := by intro q; cases q <;> exact ⟨_, rfl⟩
  obtain ⟨t, ht⟩ := hs p
  obtain ⟨t', ht'⟩ := hs p'
  rw [ht, ht'] at h4
  obtain ⟨h5, h6⟩ := split_underscore h4
  refine ⟨h2, h5, ?_⟩
  have h7 : suffix p = suffix p' := by rw [ht, ht', h6]
  cases p <;> cases p' <;> first | rfl | exact absurd h7 (by decide)

theorem saveSample_name {α : Type} (fs : Files α) (i j : Nat) (x : Part → α) (p : Part) : saveSample fs i j x (fileName i j p) = some (x p) := by
  have hne : ∀ p p' : Part, p ≠ p' → fileName i j p ≠ fileName i j p' := fun p p' hp h => hp (C128_names h).2.2
  cases p
  · simp [saveSample, put, hne .image1 .quiver (by decide), hne .image1 .image2 (by decide)]
  · simp [saveSample, put, hne .image2 .quiver (by decide)]
  · simp [saveSample, put]

theorem saveSample_other {α : Type} (fs : Files α) (i j : Nat) (x : Part → α) (name : List Char) (h : ∀ p, name ≠ fileName i j p) :
    saveSample fs i j x name = fs name := by
  simp [saveSample, put, h]

theorem saved_keeps {α : Type} (x : Nat → Nat → Part → α) : ∀ (evs : List Ev) (fs : Files α) (i j : Nat) (p : Part),
    .save i j ∈ evs ∨ fs (fileName i j p) = some (x i j p) → saved x evs fs (fileName i j p) = some (x i j p)
  | [], fs, i, j, p, h => by simpa [saved] using h
  | .shutdown :: evs, fs, i, j, p, h => by
    rw [saved]
    exact saved_keeps x evs fs i j p (by simpa using h)
  | .save i' j' :: evs, fs, i, j, p, h => by
    rw [saved]
    apply saved_keeps x evs
    by_cases e : i = i' ∧ j = j'
    · obtain ⟨rfl, rfl⟩ := e
      exact .inr (saveSample_name fs i j (x i j) p)
    · rcases h with h | h
      · left
        rcases List.mem_cons.mp h with h | h
        · simp only [Ev.save.injEq] at h
          exact absurd h e
        · exact h
      · right
        rw [saveSample_other _ _ _ _ _ (fun q hq => e ⟨(C128_names hq).1, (C128_names hq).2.1⟩)]
        exact h

theorem saved_other {α : Type} (x : Nat → Nat → Part → α) : ∀ (evs : List Ev) (fs : Files α) (name : List Char),
    (∀ i j p, .save i j ∈ evs → name ≠ fileName i j p) → saved x evs fs name = fs name
  | [], _, _, _ => rfl
  | .shutdown :: evs, fs, name, h => by
    rw [saved]
    exact saved_other x evs fs name (fun i j p hm => h i j p (by simp [hm]))
  | .save i j :: evs, fs, name, h => by
    rw [saved, saved_other x evs _ name (fun i j p hm => h i j p (by simp [hm])), saveSample_other _ _ _ _ _ (fun p => h i j p (by simp))]

/-- **C128**: after a run of the main program that ends normally, the output directory holds, for each of the batches delivered until then and each of
its first `min(num, size)` samples, the three pictures of that sample, and everything else is as before. -/
theorem C128_saved {α : Type} (x : Nat → Nat → Part → α) (next : Nat → NextRes) (visualize : Nat → Nat → Option Exc) (answer : Nat → Bool)
    (num : Int) (fuel : Nat) (evs : List Ev) (h : mainRun next visualize answer num fuel = some (evs, none)) (fs : Files α) :
    ∃ n, (∀ i, i < n → ∃ size, next i = .ok size) ∧ (next n = .error .stopIteration ∨ (0 < n ∧ 0 < num ∧ answer (n - 1) = false)) ∧
      (∀ i j p size, i < n → next i = .ok size → j < size → (j : Int) < num → saved x evs fs (fileName i j p) = some (x i j p)) ∧
      ∀ name, (∀ i j p size, i < n → next i = .ok size → j < size → (j : Int) < num → name ≠ fileName i j p) → saved x evs fs name = fs name := by
  obtain ⟨n, k, h1, _, h3, h4, _⟩ := C79_main next visualize answer num fuel evs none h
  obtain ⟨h5, h6⟩ := h4 rfl
  subst h5
  have hmem : ∀ i j, Ev.save i j ∈ evs ↔ i < n ∧ ∃ size, next i = .ok size ∧ j < size ∧ (j : Int) < num := by
    intro i j
    rw [h1]
    simp only [List.take_zero, List.append_nil, List.mem_append, List.mem_flatMap, List.mem_range, List.mem_singleton, reduceCtorEq, or_false]
    constructor
    · rintro ⟨a, ha, hs⟩
      unfold savesOf at hs
      split at hs
      · rename_i size hn
        simp only [List.mem_map, List.mem_range, Ev.save.injEq] at hs
        obtain ⟨b, hb, rfl, rfl⟩ := hs
        exact ⟨ha, size, hn, by omega, by omega⟩
      · simp at hs
    · rintro ⟨hi, size, hn, hj, hj'⟩
      refine ⟨i, hi, ?_⟩
      unfold savesOf
      rw [hn]
      simp only [List.mem_map, List.mem_range, Ev.save.injEq]
      exact ⟨j, by omega, trivial, rfl⟩
  refine ⟨n, h3, h6, ?_, ?_⟩
  · intro i j p size hi hn hj hj'
    exact saved_keeps x evs fs i j p (.inl ((hmem i j).mpr ⟨hi, size, hn, hj, hj'⟩))
  · intro name hname
    refine saved_other x evs fs name (fun i j p hm => ?_)
    obtain ⟨hi, size, hn, hj, hj'⟩ := (hmem i j).mp hm
    exact hname i j p size hi hn hj hj'

theorem saveAll_fine (visualize : Nat → Nat → Option Exc) (hv : ∀ i j, visualize i j = none) (i : Nat) :
    ∀ n j, saveAll visualize i j n = ((List.range' j n).map (fun j => Ev.save i j), none)
  | 0, _ => rfl
  | n + 1, j => by
    rw [saveAll, hv i j]
    simp [saveAll_fine visualize hv i n (j + 1), List.range'_succ]

theorem mainLoop_loop {B : Type} (size : B → Nat) (e : Exc) (next : Nat → NextRes) (visualize : Nat → Nat → Option Exc) (answer : Nat → Bool) (num : Int)
    (hv : ∀ i j, visualize i j = none) (ha : ∀ i, answer i = true) : ∀ (xs : List B) (i fuel : Nat), xs.length < fuel →
      (∀ k (b : B), xs[k]? = some b → next (i + k) = .ok (size b)) → next (i + xs.length) = .error e →
      mainLoop next visualize answer num fuel i =
        some ((List.range' i xs.length).flatMap (savesOf next num), if e = .stopIteration then none else some e)
  | [], i, fuel, hf, _, he => by
    obtain ⟨f, rfl⟩ : ∃ f, fuel = f + 1 := ⟨fuel - 1, by simp at hf; omega⟩
    rw [mainLoop]
    simp only [List.length_nil, Nat.add_zero] at he
    rw [he]
    cases e <;> rfl
  | b :: xs, i, fuel, hf, hx, he => by
    obtain ⟨f, rfl⟩ : ∃ f, fuel = f + 1 := ⟨fuel - 1, by simp at hf; omega⟩
    have h0 : next i = .ok (size b) := hx 0 b rfl
    have ih := mainLoop_loop size e next visualize answer num hv ha xs (i + 1) f (by simp at hf; omega)
      (fun k b hk => by rw [Nat.add_assoc, Nat.add_comm 1 k]; exact hx (k + 1) b (by simpa using hk))
      (by rw [Nat.add_assoc, Nat.add_comm 1]; exact he)
    rw [mainLoop, h0]
    dsimp only
    rw [saveAll_fine visualize hv]
    simp only [ha, reduceCtorEq, and_false, if_false, ih, Option.map_some, List.length_cons, List.range'_succ, List.flatMap_cons]
    rw [show savesOf next num i = (List.range' 0 (min num (size b)).toNat).map (fun j => Ev.save i j) by
      unfold savesOf; rw [h0]; dsimp only; rw [List.range_eq_range']]

/-- **C128**: the main program over a sampler whose `for` loop runs for the batches `xs` and is left by `e` (C126 says for which configurations), when
every picture can be saved and every question is answered "y": the pictures of all the batches are saved and the sampler is shut down; the
program itself ends normally exactly if the sampler was exhausted, and otherwise with the exception `e`, such as the end of an episode. -/
theorem C128_loop {B : Type} (size : B → Nat) (outcomes : Nat → Option (List (Except Exc B))) (xs : List B) (e : Exc) (h : ForLoop.Loops outcomes xs e)
    (next : Nat → NextRes) (hn : ∀ k l, outcomes k = some l → ∀ i r, l[i]? = some r → next i = r.map size)
    (visualize : Nat → Nat → Option Exc) (answer : Nat → Bool) (num : Int) (hv : ∀ i j, visualize i j = none) (ha : ∀ i, answer i = true)
    (fuel : Nat) (hf : xs.length < fuel) :
    ∃ evs, mainRun next visualize answer num fuel = some (evs, if e = .stopIteration then none else some e) ∧ evs.getLast? = some .shutdown ∧
      ∀ i j, Ev.save i j ∈ evs ↔ ∃ b, xs[i]? = some b ∧ j < size b ∧ (j : Int) < num := by
  have hx : ∀ k b, xs[k]? = some b → next k = .ok (size b) := fun k b hk =>
    hn _ _ h k (.ok b) (by
      have hlt : k < xs.length := (List.getElem?_eq_some_iff.mp hk).1
      rw [List.getElem?_append_left (by simpa using hlt), List.getElem?_map, hk]; rfl)
  have he : next xs.length = .error e := hn _ _ h xs.length (.error e) (by simp)
  refine ⟨(List.range' 0 xs.length).flatMap (savesOf next num) ++ [.shutdown], ?_, ?_, ?_⟩
  · unfold mainRun
    rw [mainLoop_loop size e next visualize answer num hv ha xs 0 fuel hf (by simpa using hx) (by simpa using he)]
    rfl
  · simp
  · intro i j
    simp only [List.mem_append, List.mem_flatMap, List.mem_singleton, reduceCtorEq, or_false, List.mem_range'_1, Nat.zero_le, true_and, Nat.zero_add]
    constructor
    · rintro ⟨a, ha, hs⟩
      obtain ⟨b, hb⟩ : ∃ b, xs[a]? = some b := ⟨xs[a], List.getElem?_eq_getElem ha⟩
      unfold savesOf at hs
      rw [hx a b hb] at hs
      simp only [List.mem_map, List.mem_range, Ev.save.injEq] at hs
      obtain ⟨c, hc, rfl, rfl⟩ := hs
      exact ⟨b, hb, by omega, by omega⟩
    · rintro ⟨b, hb, hj, hj'⟩
      refine ⟨i, (List.getElem?_eq_some_iff.mp hb).1, ?_⟩
      unfold savesOf
      rw [hx i b hb]
      simp only [List.mem_map, List.mem_range, Ev.save.injEq]
      exact ⟨j, by omega, trivial, rfl⟩

/-- Two batches of two and one samples, two pictures each shown at most: the third sample keeps its earlier picture. -/
example : (mainRun (fun i => if i = 0 then .ok 2 else if i = 1 then .ok 1 else .error .stopIteration) (fun _ _ => none) (fun _ => true) 2 5).map
    (fun r => (r.2, [fileName 0 0 .image1, fileName 0 1 .quiver, fileName 1 0 .image2, fileName 1 1 .image1].map
      (saved (fun i j _ => 10 * i + j) r.1 (fun _ => some 99)))) = some (none, [some 0, some 1, some 10, some 99]) := by decide +kernel

/-- The end of an episode after two batches: the main program ends with `EpisodeEnd`. -/
example : mainRun (fun i => if i < 2 then .ok 1 else .error .episodeEnd) (fun _ _ => none) (fun _ => true) 1 5 =
    some ([.save 0 0, .save 1 0, .shutdown], some .episodeEnd) := by decide +kernel

example : String.ofList (fileName 10 2 .quiver) = "batch_10_sample_2_quiver.png" := by decide +kernel

end Verif.Saved
