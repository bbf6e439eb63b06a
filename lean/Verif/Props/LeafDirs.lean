import Verif.Model.LeafDirs
import Mathlib.Data.List.Basic
import Mathlib.Data.List.Dedup
/-!
# Property C60: leaf directories
-/

namespace Verif.LeafDirs
open Verif

/-- The contract of iteration over a Python set built from a list: every element once, in some order. -/
def SetIter (iterSet : List String → List String) : Prop :=
  ∀ l, (iterSet l).Nodup ∧ ∀ x, x ∈ iterSet l ↔ x ∈ l

theorem leaves_spec (os : OS) (follow : Bool) : ∀ (ds r : List String), leaves os follow ds = .ok r →
    r.Sublist ds ∧ ∀ d, d ∈ r ↔ d ∈ ds ∧ ∃ es, os.scan d = .entries es ∧ ∀ e ∈ es, e.isDir follow = false
  | [], r, h => by
    simp only [leaves, Except.ok.injEq] at h
    subst h; simp
  | d :: ds, r, h => by
    unfold leaves at h
    split at h
    · simp at h
    · rename_i hs
      obtain ⟨h1, h2⟩ := leaves_spec os follow ds r h
      refine ⟨h1.cons d, fun x => ?_⟩
      rw [h2, List.mem_cons]
      constructor
      · rintro ⟨a, b⟩; exact ⟨.inr a, b⟩
      · rintro ⟨rfl | a, b⟩
        · rw [hs] at b; simp at b
        · exact ⟨a, b⟩
    · rename_i es hs
      split at h
      · rename_i hany
        obtain ⟨h1, h2⟩ := leaves_spec os follow ds r h
        refine ⟨h1.cons d, fun x => ?_⟩
        rw [h2, List.mem_cons]
        constructor
        · rintro ⟨a, b⟩; exact ⟨.inr a, b⟩
        · rintro ⟨rfl | a, es', b, b'⟩
          · rw [hs] at b
            simp only [Scan.entries.injEq] at b
            subst b
            obtain ⟨e, he, hd⟩ := List.any_eq_true.mp hany
            rw [b' e he] at hd; simp at hd
          · exact ⟨a, es', b, b'⟩
      · rename_i hany
        cases hl : leaves os follow ds with
        | error e => rw [hl] at h; simp [Except.map] at h
        | ok r' =>
          rw [hl] at h
          simp only [Except.map, Except.ok.injEq] at h
          subst h
          obtain ⟨h1, h2⟩ := leaves_spec os follow ds r' hl
          refine ⟨h1.cons_cons d, fun x => ?_⟩
          rw [List.mem_cons, h2, List.mem_cons]
          constructor
          · rintro (rfl | ⟨a, b⟩)
            · refine ⟨.inl rfl, es, hs, fun e he => ?_⟩
              by_contra hne
              exact hany (List.any_eq_true.mpr ⟨e, he, by simpa using hne⟩)
            · exact ⟨.inr a, b⟩
          · rintro ⟨rfl | a, b⟩
            · exact .inl rfl
            · exact .inr ⟨a, b⟩

/-- C60: the result lists, each exactly once, the parent directories of the given paths that can be scanned and have
no sub-directory; links to directories count as sub-directories only if links are to be followed. (If `scandir` raises an exception other than the three that mean "skip", there is no result.) -/
theorem C60_leaf_dirs_exactly_once (os : OS) (hset : SetIter os.iterSet) (follow : Bool) (paths r : List String)
    (h : discover os follow paths = .ok r) :
    r.Nodup ∧ ∀ d, d ∈ r ↔ (∃ p ∈ paths, os.parent p = d) ∧
      ∃ es, os.scan d = .entries es ∧ ∀ e ∈ es, e ≠ .dir ∧ (follow = true → e ≠ .linkToDir) := by
  obtain ⟨h1, h2⟩ := leaves_spec os follow _ r h
  obtain ⟨h3, h4⟩ := hset (paths.map os.parent)
  have hd : ∀ e : Entry, e.isDir follow = false ↔ e ≠ .dir ∧ (follow = true → e ≠ .linkToDir) := by
    intro e; cases e <;> cases follow <;> simp [Entry.isDir]
  refine ⟨h1.nodup h3, fun d => ?_⟩
  rw [h2, h4, List.mem_map]
  simp only [hd]

/-- C60, continued: there is a result unless scanning some parent directory raises an unexpected exception; and two
path lists with the same parent directories (in any order and multiplicity) have the same leaf directories. -/
theorem C60_total_and_order_independent (os : OS) (hset : SetIter os.iterSet) (follow : Bool) (paths paths' : List String)
    (hno : ∀ p ∈ paths, ∀ e, os.scan (os.parent p) ≠ .raised e) (hsame : ∀ p, p ∈ paths ↔ p ∈ paths') :
    ∃ r r', discover os follow paths = .ok r ∧ discover os follow paths' = .ok r' ∧ ∀ d, d ∈ r ↔ d ∈ r' := by
  have key : ∀ ds : List String, (∀ d ∈ ds, ∀ e, os.scan d ≠ .raised e) → ∃ r, leaves os follow ds = .ok r := by
    intro ds
    induction ds with
    | nil => intro _; exact ⟨[], rfl⟩
    | cons d ds ih =>
      intro h
      obtain ⟨r, hr⟩ := ih (fun x hx => h x (List.mem_cons_of_mem _ hx))
      unfold leaves
      split
      · rename_i e hs; exact absurd hs (h d List.mem_cons_self e)
      · exact ⟨r, hr⟩
      · split
        · exact ⟨r, hr⟩
        · exact ⟨d :: r, by rw [hr]; rfl⟩
  have ex : ∀ q : List String, (∀ p ∈ q, ∀ e, os.scan (os.parent p) ≠ .raised e) → ∃ r, discover os follow q = .ok r := by
    intro q hq
    refine key _ fun d hd e => ?_
    obtain ⟨p, hp, rfl⟩ := List.mem_map.mp (((hset _).2 d).mp hd)
    exact hq p hp e
  obtain ⟨r, hr⟩ := ex paths hno
  obtain ⟨r', hr'⟩ := ex paths' (fun p hp => hno p ((hsame p).mpr hp))
  refine ⟨r, r', hr, hr', fun d => ?_⟩
  rw [(C60_leaf_dirs_exactly_once os hset follow _ _ hr).2, (C60_leaf_dirs_exactly_once os hset follow _ _ hr').2]
  simp only [hsame]

/-- Two sequences below `r`, which itself holds a file: `r` is not a leaf. -/
def demoOS : OS where
  parent p := if p = "r/x.mat" then "r" else if p = "r/a/0.mat" ∨ p = "r/a/1.mat" then "r/a" else "gone"
  scan d := if d = "r" then .entries [.file, .dir] else if d = "r/a" then .entries [.file, .file] else .skipped
  iterSet l := l.dedup

example : SetIter demoOS.iterSet ∧
    discover demoOS false ["r/a/0.mat", "r/x.mat", "r/a/1.mat", "q/z.mat"] = .ok ["r/a"] :=
  ⟨fun l => ⟨List.nodup_dedup l, fun _ => List.mem_dedup⟩, by decide⟩

/-- A directory with a link to a directory in it is a leaf unless links are followed. -/
example :
    let os : OS := { parent := fun _ => "r", scan := fun _ => .entries [.file, .linkToDir], iterSet := fun l => l.dedup }
    discover os false ["r/0.mat"] = .ok ["r"] ∧ discover os true ["r/0.mat"] = .ok [] := by decide

end Verif.LeafDirs
