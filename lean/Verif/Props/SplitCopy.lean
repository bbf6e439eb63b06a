import Verif.Model.SplitCopy
import Verif.Props.Scripts
/-!
# Properties of the copying into splits (C96, C97)
-/

namespace Verif.SplitCopy
open Verif

/-- The name has a Reynolds number: `_Re<digits>_` occurs in it, after `a`. -/
def HasRe (digit : Char → Bool) (fname a ds : List Char) : Prop :=
  ds ≠ [] ∧ (∀ c ∈ ds, digit c = true) ∧ ∃ b, fname = a ++ "_Re".toList ++ ds ++ '_' :: b

theorem takeWhile_digits {digit : Char → Bool} (hu : digit '_' = false) {ds b : List Char} (h : ∀ c ∈ ds, digit c = true) :
    (ds ++ '_' :: b).takeWhile digit = ds ∧ (ds ++ '_' :: b).dropWhile digit = '_' :: b := by
  constructor
  · rw [List.takeWhile_append_of_pos h]; simp [hu]
  · rw [List.dropWhile_append_of_pos h]; simp [hu]

theorem reAt_some {digit : Char → Bool} {l r : List Char} (h : reAt digit l = some r) :
    ∃ ds, r = 'R' :: 'e' :: ds ∧ HasRe digit l [] ds := by
  unfold reAt at h
  split at h
  · rename_i t
    split at h
    · rename_i hc
      simp only [Option.some.injEq] at h
      refine ⟨t.takeWhile digit, h.symm, hc.1, fun c hm => ?_, ?_⟩
      · exact List.mem_takeWhile_imp hm
      · cases hd : t.dropWhile digit with
        | nil => rw [hd] at hc; simp at hc
        | cons x b =>
          rw [hd] at hc
          simp only [List.head?_cons, Option.some.injEq] at hc
          refine ⟨b, ?_⟩
          have := List.takeWhile_append_dropWhile (p := digit) (l := t)
          rw [hd, hc.2] at this
          simp only [List.nil_append]
          conv_lhs => rw [← this]
          rfl
    · simp at h
  · simp at h

theorem reAt_hit {digit : Char → Bool} (hu : digit '_' = false) {l ds : List Char} (h : HasRe digit l [] ds) :
    reAt digit l = some ('R' :: 'e' :: ds) := by
  obtain ⟨h1, h2, b, rfl⟩ := h
  obtain ⟨e1, e2⟩ := takeWhile_digits hu (b := b) h2
  show reAt digit ('_' :: 'R' :: 'e' :: (ds ++ '_' :: b)) = _
  have e : reAt digit ('_' :: 'R' :: 'e' :: (ds ++ '_' :: b)) =
      if (ds ++ '_' :: b).takeWhile digit ≠ [] ∧ ((ds ++ '_' :: b).dropWhile digit).head? = some '_' then
        some ('R' :: 'e' :: (ds ++ '_' :: b).takeWhile digit) else none := rfl
  rw [e, if_pos ⟨by rw [e1]; exact h1, by rw [e2]; rfl⟩, e1]

/-- The sub-folder is that of the leftmost Reynolds number of the name. -/
theorem reFolder_iff {digit : Char → Bool} (hu : digit '_' = false) (fname : List Char) (r : Name) :
    reFolder digit fname = some r ↔
      ∃ a ds, r = 'R' :: 'e' :: ds ∧ HasRe digit fname a ds ∧ ∀ a' ds', HasRe digit fname a' ds' → a.length ≤ a'.length := by
  induction fname with
  | nil =>
    simp only [reFolder, reduceCtorEq, false_iff]
    rintro ⟨a, ds, _, ⟨_, _, b, h⟩, _⟩
    simp at h
  | cons c l ih =>
    rw [reFolder]
    cases hk : reAt digit (c :: l) with
    | some x =>
      simp only [Option.some.injEq]
      obtain ⟨ds, hx, hds⟩ := reAt_some hk
      constructor
      · rintro rfl
        exact ⟨[], ds, hx, hds, fun _ _ _ => Nat.zero_le _⟩
      · rintro ⟨a, ds', hr, hds', hmin⟩
        have : a = [] := List.eq_nil_of_length_eq_zero (Nat.le_zero.1 (hmin [] ds hds))
        subst this
        have h2 := reAt_hit hu hds'
        rw [hk, ← hr] at h2
        exact Option.some.inj h2
    | none =>
      simp only []
      rw [ih]
      have shift : ∀ a ds, HasRe digit l a ds ↔ HasRe digit (c :: l) (c :: a) ds := by
        intro a ds
        constructor
        · rintro ⟨h1, h2, b, h3⟩
          exact ⟨h1, h2, b, by rw [h3]; rfl⟩
        · rintro ⟨h1, h2, b, h3⟩
          refine ⟨h1, h2, b, ?_⟩
          simpa using h3
      have cons : ∀ a ds, HasRe digit (c :: l) a ds → ∃ a', a = c :: a' := by
        intro a ds h
        cases a with
        | nil => rw [reAt_hit hu h] at hk; simp at hk
        | cons x a' =>
          obtain ⟨_, _, b, h3⟩ := h
          simp only [List.cons_append, List.cons.injEq] at h3
          exact ⟨a', by rw [h3.1]⟩
      constructor
      · rintro ⟨a, ds, hr, hh, hmin⟩
        refine ⟨c :: a, ds, hr, (shift a ds).1 hh, fun a' ds' h' => ?_⟩
        obtain ⟨a'', rfl⟩ := cons a' ds' h'
        have := hmin a'' ds' ((shift a'' ds').2 h')
        simpa using this
      · rintro ⟨a, ds, hr, hh, hmin⟩
        obtain ⟨a1, rfl⟩ := cons a ds hh
        refine ⟨a1, ds, hr, (shift a1 ds).2 hh, fun a' ds' h' => ?_⟩
        have := hmin (c :: a') ds' ((shift a' ds').1 h')
        simpa using this

/-- Where a packed file goes inside a split: below its own directory, in a folder named by its Reynolds number if it has one. -/
def Place (digit : Char → Bool) {α : Type} (q : Packed α) (dir : List Name) : Prop :=
  (∃ a ds, dir = q.dir ++ ['R' :: 'e' :: ds] ∧ HasRe digit q.name a ds ∧ ∀ a' ds', HasRe digit q.name a' ds' → a.length ≤ a'.length) ∨
  (dir = q.dir ∧ ∀ a ds, ¬ HasRe digit q.name a ds)

theorem place_iff {digit : Char → Bool} (hu : digit '_' = false) {α : Type} (q : Packed α) (dir : List Name) :
    Place digit q dir ↔ dir = targetDir digit q.dir q.name := by
  unfold Place targetDir
  cases h : reFolder digit q.name with
  | some r =>
    obtain ⟨a, ds, hr, hh, hm⟩ := (reFolder_iff hu q.name r).1 h
    simp only []
    constructor
    · rintro (⟨a', ds', hd, hh', hm'⟩ | ⟨_, hn⟩)
      · have := (reFolder_iff hu q.name ('R' :: 'e' :: ds')).2 ⟨a', ds', rfl, hh', hm'⟩
        rw [h] at this
        rw [hd, Option.some.inj this]
      · exact absurd hh (hn a ds)
    · rintro rfl
      exact .inl ⟨a, ds, by rw [hr], hh, hm⟩
  | none =>
    simp only []
    have hno : ∀ a ds, ¬ HasRe digit q.name a ds := by
      intro a ds hh
      -- a leftmost one exists
      have : ∃ n, ∃ a ds, HasRe digit q.name a ds ∧ a.length = n := ⟨_, a, ds, hh, rfl⟩
      classical
      obtain ⟨a0, ds0, h0, hl⟩ := Nat.find_spec this
      have hmin : ∀ a' ds', HasRe digit q.name a' ds' → a0.length ≤ a'.length := fun a' ds' h' => by
        rw [hl]; exact Nat.find_min' this ⟨a', ds', h', rfl⟩
      have := (reFolder_iff hu q.name ('R' :: 'e' :: ds0)).2 ⟨a0, ds0, rfl, h0, hmin⟩
      rw [h] at this
      simp at this
    constructor
    · rintro (⟨a', ds', _, hh', _⟩ | ⟨hd, _⟩)
      · exact absurd hh' (hno a' ds')
      · exact hd
    · rintro rfl
      exact .inr ⟨rfl, hno⟩

theorem put_fold {α : Type} (d : List Name) (f : Name) (x : α) : ∀ (l : List Nat) (fs : Files α) (p : Nat × List Name × Name),
    (l.foldl (fun fs s => put fs (s, d, f) x) fs) p = if p.1 ∈ l ∧ p.2 = (d, f) then some x else fs p := by
  intro l
  induction l with
  | nil => intro fs p; simp
  | cons s l ih =>
    intro fs p
    rw [List.foldl_cons, ih]
    by_cases h : p.1 ∈ l ∧ p.2 = (d, f)
    · rw [if_pos h, if_pos ⟨List.mem_cons_of_mem _ h.1, h.2⟩]
    · rw [if_neg h]
      unfold put
      by_cases hp : p = (s, d, f)
      · subst hp; simp
      · rw [if_neg hp, if_neg]
        rintro ⟨h1, h2⟩
        rcases List.mem_cons.1 h1 with h1 | h1
        · exact hp (by rw [← h1, ← h2])
        · exact h ⟨h1, h2⟩

theorem copyOne_eq {α : Type} (digit : Char → Bool) (sets : List (List Name)) (fs : Files α) (q : Packed α) (p : Nat × List Name × Name) :
    copyOne digit sets fs q p =
      if p.1 ∈ Scripts.assigned sets q.name ∧ p.2 = (targetDir digit q.dir q.name, q.name) then some q.content else fs p :=
  put_fold _ _ _ _ _ _

/-- Different packed files go to different places. -/
theorem targetDir_inj {digit : Char → Bool} {d d' : List Name} {f : Name} (h : targetDir digit d f = targetDir digit d' f) : d = d' := by
  unfold targetDir at h
  split at h
  · exact (List.append_left_inj _).1 h
  · exact h

theorem perform_eq {α : Type} (digit : Char → Bool) (sets : List (List Name)) : ∀ (packed : List (Packed α)),
    (packed.map (fun q => (q.dir, q.name))).Nodup → ∀ (fs : Files α) (p : Nat × List Name × Name),
    (∀ q ∈ packed, p.1 ∈ Scripts.assigned sets q.name → p.2 = (targetDir digit q.dir q.name, q.name) → perform digit sets packed fs p = some q.content) ∧
    ((∀ q ∈ packed, ¬ (p.1 ∈ Scripts.assigned sets q.name ∧ p.2 = (targetDir digit q.dir q.name, q.name))) → perform digit sets packed fs p = fs p) := by
  intro packed
  induction packed with
  | nil => intro _ fs p; exact ⟨fun q hq => by simp at hq, fun _ => rfl⟩
  | cons q0 l ih =>
    intro hn fs p
    rw [List.map_cons, List.nodup_cons] at hn
    obtain ⟨i1, i2⟩ := ih hn.2 (copyOne digit sets fs q0) p
    have hrun : perform digit sets (q0 :: l) fs p = perform digit sets l (copyOne digit sets fs q0) p := rfl
    rw [hrun]
    constructor
    · intro q hq h1 h2
      rcases List.mem_cons.1 hq with rfl | hq
      · rw [i2, copyOne_eq, if_pos ⟨h1, h2⟩]
        rintro q' hq' ⟨_, h2'⟩
        rw [h2] at h2'
        simp only [Prod.mk.injEq] at h2'
        obtain ⟨e1, e2⟩ := h2'
        rw [← e2] at e1
        refine hn.1 (List.mem_map.2 ⟨q', hq', ?_⟩)
        rw [targetDir_inj e1, e2]
      · exact i1 q hq h1 h2
    · intro hno
      rw [i2 (fun q hq => hno q (List.mem_cons_of_mem _ hq)), copyOne_eq, if_neg (hno q0 (List.mem_cons_self))]

/-- **C96.** Whatever the split directories held before, and in whatever order the packed files are found: after splitting, every
packed file named in the list of split `s` is in that split, unchanged, under its own name and in its place; no two packed files get
in each other's way; and every other path of the split directories holds what it held before. -/
theorem C96_copies_exactly {α : Type} (digit : Char → Bool) (hu : digit '_' = false) (sets : List (List Name)) (packed : List (Packed α))
    (hn : (packed.map (fun q => (q.dir, q.name))).Nodup) (fs : Files α) (s : Nat) (hs : s < sets.length) :
    (∀ q ∈ packed, q.name ∈ sets.getD s [] → ∃ dir, Place digit q dir ∧ perform digit sets packed fs (s, dir, q.name) = some q.content) ∧
    (∀ q ∈ packed, ∀ q' ∈ packed, ∀ dir, Place digit q dir → Place digit q' dir → q.name = q'.name → q.dir = q'.dir) ∧
    (∀ dir f, (¬ ∃ q ∈ packed, q.name = f ∧ f ∈ sets.getD s [] ∧ Place digit q dir) → perform digit sets packed fs (s, dir, f) = fs (s, dir, f)) := by
  have hmem : ∀ f, (s ∈ Scripts.assigned sets f ↔ f ∈ sets.getD s []) := by
    intro f
    unfold Scripts.assigned
    simp [hs]
  refine ⟨?_, ?_, ?_⟩
  · intro q hq hf
    exact ⟨_, (place_iff hu q _).2 rfl, (perform_eq digit sets packed hn fs (s, targetDir digit q.dir q.name, q.name)).1 q hq ((hmem _).2 hf) rfl⟩
  · intro q _ q' _ dir h1 h2 he
    rw [place_iff hu] at h1 h2
    rw [h1, ← he] at h2
    exact targetDir_inj h2
  · intro dir f hno
    refine (perform_eq digit sets packed hn fs (s, dir, f)).2 ?_
    rintro q hq ⟨h1, h2⟩
    simp only [Prod.mk.injEq] at h2
    refine hno ⟨q, hq, h2.2.symm, ?_, (place_iff hu q dir).2 h2.1⟩
    rw [h2.2]
    exact (hmem _).1 h1

/-- ASCII digits. -/
def ascii (c : Char) : Bool := '0' ≤ c && c ≤ '9'

/-- Three packed files for the examples, two of them of the same name. -/
def demoPacked : List (Packed Nat) :=
  [⟨["b".toList], "x_Re800_Re9_1.mat".toList, 1⟩, ⟨["c".toList], "x_Re800_Re9_1.mat".toList, 2⟩, ⟨[], "y_Re_2.mat".toList, 3⟩]

example : (demoPacked.map (fun q => (q.dir, q.name))).Nodup ∧ ascii '_' = false ∧
    perform ascii [["x_Re800_Re9_1.mat".toList], ["y_Re_2.mat".toList]] demoPacked (fun _ => none) (0, ["b".toList, "Re800".toList], "x_Re800_Re9_1.mat".toList) = some 1 ∧
    perform ascii [["x_Re800_Re9_1.mat".toList], ["y_Re_2.mat".toList]] demoPacked (fun _ => none) (0, ["c".toList, "Re800".toList], "x_Re800_Re9_1.mat".toList) = some 2 ∧
    perform ascii [["x_Re800_Re9_1.mat".toList], ["y_Re_2.mat".toList]] demoPacked (fun _ => none) (1, [], "y_Re_2.mat".toList) = some 3 ∧
    perform ascii [["x_Re800_Re9_1.mat".toList], ["y_Re_2.mat".toList]] demoPacked (fun _ => none) (0, [], "y_Re_2.mat".toList) = none := by
  decide +kernel

/-! ## C97 -/

/-- The splits a sample of that name is found in, anywhere. -/
def FoundIn {α : Type} (fs : Files α) (f : Name) (s : Nat) : Prop := ∃ dir x, fs (s, dir, f) = some x

/-- **C97** (partial). If the split directories were empty, or held what an earlier run with the same lists and the same packed files
left, then after splitting a sample is found exactly in the splits whose lists name it; with the lists of C77 that is one of
training, validation and tuning. Missing: runs with other lists before (`C97_refuted`). -/
theorem C97_rerun_partial {α : Type} (digit : Char → Bool) (hu : digit '_' = false) (sets : List (List Name)) (packed : List (Packed α))
    (hn : (packed.map (fun q => (q.dir, q.name))).Nodup) (n : Nat) (s : Nat) (hs : s < sets.length) (f : Name) :
    FoundIn (Nat.repeat (perform digit sets packed) (n + 1) (fun _ => none)) f s ↔ f ∈ sets.getD s [] ∧ ∃ q ∈ packed, q.name = f := by
  have hnone : ∀ n dir, (¬ ∃ q ∈ packed, q.name = f ∧ f ∈ sets.getD s [] ∧ Place digit q dir) →
      Nat.repeat (perform digit sets packed) n (fun _ => none) (s, dir, f) = (none : Option α) := by
    intro n dir hno
    induction n with
    | zero => rfl
    | succ n ih =>
      show perform digit sets packed (Nat.repeat (perform digit sets packed) n (fun _ => none)) (s, dir, f) = none
      rw [(C96_copies_exactly digit hu sets packed hn _ s hs).2.2 dir f hno]
      exact ih
  constructor
  · rintro ⟨dir, x, hx⟩
    by_contra hne
    have := hnone (n + 1) dir (fun ⟨q, hq, h1, h2, _⟩ => hne ⟨h2, q, hq, h1⟩)
    rw [this] at hx
    simp at hx
  · rintro ⟨hf, q, hq, rfl⟩
    obtain ⟨dir, _, h⟩ := (C96_copies_exactly digit hu sets packed hn (Nat.repeat (perform digit sets packed) n (fun _ => none)) s hs).1 q hq hf
    exact ⟨dir, _, h⟩

/-- **C97 is false**: if the script is run again with another seed, a sample that was in the training set and now is in the
validation set stays in the training set. The lists are those of the same two samples, before and after. -/
theorem C97_refuted :
    FoundIn (perform ascii [["b.mat".toList], ["a.mat".toList]] [⟨[], "a.mat".toList, 1⟩, ⟨[], "b.mat".toList, 2⟩]
      (perform ascii [["a.mat".toList], ["b.mat".toList]] [⟨[], "a.mat".toList, 1⟩, ⟨[], "b.mat".toList, 2⟩] (fun _ => none))) "a.mat".toList 0 ∧
    FoundIn (perform ascii [["b.mat".toList], ["a.mat".toList]] [⟨[], "a.mat".toList, 1⟩, ⟨[], "b.mat".toList, 2⟩]
      (perform ascii [["a.mat".toList], ["b.mat".toList]] [⟨[], "a.mat".toList, 1⟩, ⟨[], "b.mat".toList, 2⟩] (fun _ => none))) "a.mat".toList 1 :=
  ⟨⟨[], 1, by decide +kernel⟩, ⟨[], 1, by decide +kernel⟩⟩

end Verif.SplitCopy
