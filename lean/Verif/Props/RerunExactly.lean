import Verif.Props.SplitCopy
/-!
# C97, exactly: where samples are found after runs with different lists
-/

namespace Verif.SplitCopy
open Verif

/-- A run of the splitting: its lists and the packed files it found. -/
abbrev Run (α : Type) := List (List Name) × List (Packed α)

/-- The run copies the sample `f` into split `s`: its list names it and a file of that name is there. -/
def Assigns {α : Type} (r : Run α) (f : Name) (s : Nat) : Prop := f ∈ r.1.getD s [] ∧ ∃ q ∈ r.2, q.name = f

private theorem foundIn_step {α : Type} (digit : Char → Bool) (hu : digit '_' = false) (r : Run α)
    (hn : (r.2.map (fun q => (q.dir, q.name))).Nodup) (fs : Files α) (s : Nat) (hs : s < r.1.length) (f : Name) :
    FoundIn (perform digit r.1 r.2 fs) f s ↔ Assigns r f s ∨ FoundIn fs f s := by
  have h96 := C96_copies_exactly digit hu r.1 r.2 hn fs s hs
  constructor
  · rintro ⟨dir, x, hx⟩
    by_cases hno : ∃ q ∈ r.2, q.name = f ∧ f ∈ r.1.getD s [] ∧ Place digit q dir
    · obtain ⟨q, hq, h1, h2, _⟩ := hno
      exact .inl ⟨h2, q, hq, h1⟩
    · rw [h96.2.2 dir f hno] at hx
      exact .inr ⟨dir, x, hx⟩
  · rintro (⟨hf, q, hq, rfl⟩ | ⟨dir, x, hx⟩)
    · obtain ⟨dir, _, h⟩ := h96.1 q hq hf
      exact ⟨dir, _, h⟩
    · by_cases hno : ∃ q ∈ r.2, q.name = f ∧ f ∈ r.1.getD s [] ∧ Place digit q dir
      · obtain ⟨q, hq, rfl, h2, _⟩ := hno
        obtain ⟨dir, _, h⟩ := h96.1 q hq h2
        exact ⟨dir, _, h⟩
      · exact ⟨dir, x, by rw [h96.2.2 dir f hno]; exact hx⟩

/-- **C97, exactly**: after any runs, with any lists and any packed files, a sample is found in exactly the splits that one of the runs has put it
into. -/
theorem C97_exactly {α : Type} (digit : Char → Bool) (hu : digit '_' = false) (runs : List (Run α))
    (hn : ∀ r ∈ runs, (r.2.map (fun q => (q.dir, q.name))).Nodup) (fs : Files α) (s : Nat) (hs : ∀ r ∈ runs, s < r.1.length) (f : Name) :
    FoundIn (runs.foldl (fun fs r => perform digit r.1 r.2 fs) fs) f s ↔ (∃ r ∈ runs, Assigns r f s) ∨ FoundIn fs f s := by
  induction runs generalizing fs with
  | nil => simp
  | cons r runs ih =>
    rw [List.foldl_cons, ih (fun q hq => hn q (List.mem_cons_of_mem _ hq)) _ (fun q hq => hs q (List.mem_cons_of_mem _ hq)),
      foundIn_step digit hu r (hn r List.mem_cons_self) fs s (hs r List.mem_cons_self)]
    simp only [List.mem_cons, exists_eq_or_imp]
    rw [or_left_comm, or_assoc]

/-- **C97** holds after a run `last`, starting from empty split directories, if and only if no earlier run has put a sample into a split into which
the last one does not put it. -/
theorem C97_iff {α : Type} (digit : Char → Bool) (hu : digit '_' = false) (earlier : List (Run α)) (last : Run α) (n : Nat)
    (hn : ∀ r ∈ earlier ++ [last], (r.2.map (fun q => (q.dir, q.name))).Nodup) (hs : ∀ r ∈ earlier ++ [last], r.1.length = n) :
    (∀ f s, s < n → (FoundIn ((earlier ++ [last]).foldl (fun fs r => perform digit r.1 r.2 fs) (fun _ => none)) f s ↔ Assigns last f s)) ↔
      ∀ r ∈ earlier, ∀ f s, s < n → Assigns r f s → Assigns last f s := by
  have hx : ∀ f s, s < n → (FoundIn ((earlier ++ [last]).foldl (fun fs r => perform digit r.1 r.2 fs) (fun _ => none)) f s ↔
      (∃ r ∈ earlier, Assigns r f s) ∨ Assigns last f s) := by
    intro f s hsn
    rw [C97_exactly digit hu _ hn _ s (fun r hr => by rw [hs r hr]; exact hsn)]
    have : ¬ FoundIn (fun _ => none : Files α) f s := fun ⟨_, _, h⟩ => by simp at h
    simp only [this, or_false, List.mem_append, List.mem_singleton, or_and_right, exists_or, exists_eq_left]
  constructor
  · intro h r hr f s hsn ha
    exact (h f s hsn).mp ((hx f s hsn).mpr (.inl ⟨r, hr, ha⟩))
  · intro h f s hsn
    rw [hx f s hsn]
    exact ⟨fun q => q.elim (fun ⟨r, hr, ha⟩ => h r hr f s hsn ha) id, .inr⟩

/-- Two runs with the lists of different seeds: the first has put "a.mat" into split 0, the second has not. -/
example : Assigns (([["a.mat".toList], ["b.mat".toList]], [⟨[], "a.mat".toList, 1⟩, ⟨[], "b.mat".toList, 2⟩]) : Run Nat) "a.mat".toList 0 ∧
    ¬ Assigns (([["b.mat".toList], ["a.mat".toList]], [⟨[], "a.mat".toList, 1⟩, ⟨[], "b.mat".toList, 2⟩]) : Run Nat) "a.mat".toList 0 :=
  ⟨⟨by decide, ⟨[], "a.mat".toList, 1⟩, by simp, rfl⟩, fun h => absurd h.1 (by decide)⟩

end Verif.SplitCopy
