import Verif.Props.Formats
/-!
# Exactly which batches can be delivered (C19)
-/

namespace Verif.Base
open Verif
variable {V D Key : Type}

/-- Specification: the arrays can be made into one with `n` rows: they have the same shape, with `rank` axes if rows are missing. -/
def Stackable (rank n : Nat) (l : List (Arr V)) : Prop := ∃ sh, (∀ a ∈ l, a.shape = sh) ∧ (l.length < n → sh.length = rank)

/-- Specification: the images can be delivered, or are left out because a sample has none. -/
def ImagesFit (n : Nat) (l : List (Option (Arr V))) : Prop := none ∈ l ∨ ∃ as : List (Arr V), l = as.map some ∧ Stackable 2 n as

/-- Specification: no sample has names, or all have one at most. -/
def NamesFit (l : List (Option (List String))) : Prop := (∀ f ∈ l, f = none) ∨ ∀ f ∈ l, ∃ names, f = some names ∧ names.length ≤ 1

theorem stack_ok (l : List (Arr V)) (hne : l ≠ []) (sh : List Nat) (h : ∀ a ∈ l, a.shape = sh) : ∃ r, Arr.stack l = .ok r ∧ r.shape = l.length :: sh := by
  match l, hne with
  | a :: rest, _ =>
    have h1 := h a (by simp)
    refine ⟨_, if_pos ?_, by simp [h1]⟩
    rw [List.all_eq_true]
    intro b hb
    rw [h b (by simp [hb]), h1, beq_self_eq_true]

theorem stack_iff (l : List (Arr V)) (r : Arr V) (h : Arr.stack l = .ok r) : ∃ sh, (∀ a ∈ l, a.shape = sh) ∧ r.shape = l.length :: sh := by
  match l with
  | [] => cases h
  | a :: rest =>
    simp only [Arr.stack] at h
    split at h
    · rename_i hall
      rw [List.all_eq_true] at hall
      obtain rfl := Except.ok.inj h
      refine ⟨a.shape, fun b hb => ?_, by simp⟩
      rcases List.mem_cons.1 hb with rfl | hb
      · rfl
      · simpa using hall b hb
    · cases h

theorem padFirst_ok (zero : V) (pairs k : Nat) (a : Arr V) (n : Nat) (sh : List Nat) (hs : a.shape = n :: sh) :
    (∃ r, Arr.padFirst zero pairs k a = .ok r) ↔ sh.length + 1 = pairs := by
  unfold Arr.padFirst
  simp only [hs, List.length_cons]
  by_cases h : sh.length + 1 = pairs
  · rw [if_pos h]
    exact ⟨fun _ => h, fun _ => ⟨_, rfl⟩⟩
  · rw [if_neg h]
    exact ⟨fun ⟨_, h'⟩ => (nomatch h'), fun h' => absurd h' h⟩

theorem assembleImages_iff (zero : V) (l : List (Option (Arr V))) (hne : l ≠ []) (n : Nat) : (∃ r, assembleImages zero l n = .ok r) ↔ ImagesFit n l := by
  unfold assembleImages ImagesFit
  split
  · rename_i hall
    obtain ⟨as, rfl⟩ : ∃ as : List (Arr V), l = as.map some := by
      refine ⟨l.filterMap id, ?_⟩
      clear hne
      induction l with
      | nil => rfl
      | cons o l ih =>
        simp only [List.all_cons, Bool.and_eq_true] at hall
        obtain ⟨a, rfl⟩ := Option.isSome_iff_exists.1 hall.1
        rw [List.filterMap_cons]
        simp only [id_eq, List.map_cons, List.cons.injEq, true_and]
        exact ih hall.2
    have hfm : (as.map some).filterMap id = as := by simp
    rw [hfm]
    have hne' : as ≠ [] := by simpa using hne
    rw [List.length_map]
    have h2 : none ∈ as.map some ↔ False := by simp
    simp only [h2, false_or, List.map_inj_right (fun _ _ => Option.some.inj), exists_eq_left', Stackable]
    constructor
    · rintro ⟨r, h⟩
      cases hs : Arr.stack as with
      | error e => rw [hs] at h; cases h
      | ok a =>
        rw [hs] at h
        obtain ⟨sh, q1, q2⟩ := stack_iff as a hs
        refine ⟨sh, q1, fun hlt => ?_⟩
        simp only [if_pos hlt] at h
        cases hp : Arr.padFirst zero 3 (n - as.length) a with
        | error e => rw [hp] at h; cases h
        | ok b =>
          have := (padFirst_ok zero 3 _ a _ sh q2).1 ⟨b, hp⟩
          omega
    · rintro ⟨sh, q1, q2⟩
      obtain ⟨a, hs, hsh⟩ := stack_ok as hne' sh q1
      rw [hs]
      simp only
      split
      · rename_i hlt
        obtain ⟨b, hb⟩ := (padFirst_ok zero 3 (n - as.length) a _ sh hsh).2 (by rw [q2 hlt])
        exact ⟨some b, by rw [hb]; rfl⟩
      · exact ⟨_, rfl⟩
  · rename_i hall
    refine ⟨fun _ => .inl ?_, fun _ => ⟨_, rfl⟩⟩
    by_contra hn
    apply hall
    rw [List.all_eq_true]
    intro o ho
    cases o with
    | none => exact absurd ho hn
    | some a => rfl

theorem assembleFiles_iff (l : List (Option (List String))) (n : Nat) : (∃ r, assembleFiles l n = .ok r) ↔ NamesFit l := by
  unfold assembleFiles NamesFit
  split
  · rename_i hany
    obtain ⟨f, hf, hs⟩ := List.any_eq_true.1 hany
    split
    · rename_i hall
      refine ⟨fun _ => .inr fun g hg => ?_, fun _ => ⟨_, rfl⟩⟩
      have := List.all_eq_true.1 hall g hg
      cases g with
      | none => simp at this
      | some names => exact ⟨names, rfl, by simpa using this⟩
    · rename_i hall
      refine ⟨fun ⟨_, h⟩ => (by cases h), fun h => absurd ?_ hall⟩
      rcases h with h | h
      · rw [h f hf] at hs
        cases hs
      · rw [List.all_eq_true]
        intro g hg
        obtain ⟨names, rfl, hl⟩ := h g hg
        simpa using hl
  · rename_i hany
    refine ⟨fun _ => .inl fun f hf => ?_, fun _ => ⟨_, rfl⟩⟩
    by_contra hn
    apply hany
    rw [List.any_eq_true]
    exact ⟨f, hf, Option.isSome_iff_ne_none.2 hn⟩

/-- **C19** exactly. The samples a request has found are delivered if and only if their flow fields have one shape, their images too (unless a sample has none), no sample has several file names
or lacks them while others have them, and, if rows must be added, flow fields have three axes and images two. Otherwise `ValueError` is raised, and the samples are lost: the state is as if they
had been delivered. -/
theorem C19_exactly (zero : V) (w : World V D Key) (cfg : Cfg) (fuel n : Nat) (s s' : St D Key) (xs : List (Sample V)) (hc : collect w cfg fuel n s = some (.ok xs, s')) (hx : xs ≠ []) :
    ((∃ b, getBatch zero w cfg fuel n s = some (.ok b, s')) ↔
      Stackable 3 n (xs.map Sample.flow) ∧ ImagesFit n (xs.map Sample.images1) ∧ ImagesFit n (xs.map Sample.images2) ∧ NamesFit (xs.map Sample.files)) ∧
    ((∃ b, getBatch zero w cfg fuel n s = some (.ok b, s')) ∨ getBatch zero w cfg fuel n s = some (.error .valueError, s')) := by
  have hg : getBatch zero w cfg fuel n s = some (assemble zero cfg xs n, s') := by
    have : xs.isEmpty = false := by simpa using hx
    simp [getBatch, hc, this]
  rw [hg]
  have hmap {α : Type} (f : Sample V → α) : xs.map f ≠ [] := by simpa using hx
  simp only [Option.some.injEq, Prod.mk.injEq, and_true]
  have i1 := assembleImages_iff zero _ (hmap Sample.images1) n
  have i2 := assembleImages_iff zero _ (hmap Sample.images2) n
  have i3 := assembleFiles_iff (xs.map Sample.files) n
  unfold assemble
  simp only [bind, Except.bind, pure, Except.pure]
  cases h1 : assembleImages zero (xs.map Sample.images1) n with
  | error e =>
    obtain rfl := assembleImages_error h1
    refine ⟨⟨fun ⟨_, h⟩ => (by cases h), fun ⟨_, h, _⟩ => ?_⟩, .inr rfl⟩
    obtain ⟨r, hr⟩ := i1.2 h
    rw [h1] at hr
    cases hr
  | ok im1 =>
    replace i1 := i1.1 ⟨im1, h1⟩
    cases h2 : assembleImages zero (xs.map Sample.images2) n with
    | error e =>
      obtain rfl := assembleImages_error h2
      refine ⟨⟨fun ⟨_, h⟩ => (by cases h), fun ⟨_, _, h, _⟩ => ?_⟩, .inr rfl⟩
      obtain ⟨r, hr⟩ := i2.2 h
      rw [h2] at hr
      cases hr
    | ok im2 =>
      replace i2 := i2.1 ⟨im2, h2⟩
      cases h3 : Arr.stack (xs.map Sample.flow) with
      | error e =>
        obtain rfl := stack_error h3
        refine ⟨⟨fun ⟨_, h⟩ => (by cases h), fun ⟨⟨sh, h, _⟩, _⟩ => ?_⟩, .inr rfl⟩
        obtain ⟨r, hr, _⟩ := stack_ok _ (hmap Sample.flow) sh h
        rw [h3] at hr
        cases hr
      | ok fl0 =>
        obtain ⟨sh, q1, q2⟩ := stack_iff _ _ h3
        cases h4 : assembleFiles (xs.map Sample.files) n with
        | error e =>
          obtain rfl := assembleFiles_error h4
          refine ⟨⟨fun ⟨_, h⟩ => (by cases h), fun ⟨_, _, _, h⟩ => ?_⟩, .inr rfl⟩
          obtain ⟨r, hr⟩ := i3.2 h
          rw [h4] at hr
          cases hr
        | ok names =>
          replace i3 := i3.1 ⟨names, h4⟩
          by_cases hlt : xs.length < n
          · simp only [if_pos hlt]
            have hp := padFirst_ok zero 4 (n - xs.length) fl0 _ sh q2
            cases h5 : Arr.padFirst zero 4 (n - xs.length) fl0 with
            | error e =>
              obtain rfl := padFirst_error h5
              refine ⟨⟨fun ⟨_, h⟩ => (by cases h), fun ⟨⟨sh', h, hr⟩, _⟩ => ?_⟩, .inr rfl⟩
              have hsh : sh = sh' := by
                obtain ⟨a, ha⟩ := List.exists_mem_of_ne_nil _ (hmap Sample.flow)
                rw [← q1 a ha, ← h a ha]
              subst hsh
              obtain ⟨r, hr⟩ := hp.2 (by rw [hr (by simpa using hlt)])
              rw [h5] at hr
              cases hr
            | ok fl1 =>
              have := hp.1 ⟨fl1, h5⟩
              exact ⟨⟨fun _ => ⟨⟨sh, q1, fun _ => by omega⟩, i1, i2, i3⟩, fun _ => ⟨_, rfl⟩⟩, .inl ⟨_, rfl⟩⟩
          · simp only [if_neg hlt]
            exact ⟨⟨fun _ => ⟨⟨sh, q1, fun h => absurd (by simpa using h) hlt⟩, i1, i2, i3⟩, fun _ => ⟨_, rfl⟩⟩, .inl ⟨_, rfl⟩⟩

/-- **C19**, the NumPy scheduler's images, which have three axes: a batch with a row missing is never delivered. -/
theorem C19_colour_never (zero : V) (w : World V D Key) (cfg : Cfg) (fuel n : Nat) (s s' : St D Key) (xs : List (Sample V)) (hc : collect w cfg fuel n s = some (.ok xs, s')) (hx : xs ≠ [])
    (hlt : xs.length < n) (himg : ∀ x ∈ xs, ∃ a, x.images1 = some a ∧ a.shape.length = 3) : getBatch zero w cfg fuel n s = some (.error .valueError, s') := by
  obtain ⟨h1, h2⟩ := C19_exactly zero w cfg fuel n s s' xs hc hx
  refine h2.resolve_left fun hb => ?_
  obtain ⟨_, hi, _⟩ := h1.1 hb
  rcases hi with hnone | ⟨as, he, sh, q1, q2⟩
  · obtain ⟨x, hxm, hxn⟩ := List.mem_map.1 hnone
    obtain ⟨a, ha, _⟩ := himg x hxm
    rw [hxn] at ha
    cases ha
  · obtain ⟨x, hxm⟩ := List.exists_mem_of_ne_nil _ hx
    obtain ⟨a, ha, hr⟩ := himg x hxm
    have hmem : a ∈ as := by
      have : some a ∈ as.map some := by rw [← he, ← ha]; exact List.mem_map_of_mem hxm
      simpa using this
    have hl : as.length = xs.length := by
      have := congrArg List.length he
      simpa using this.symm
    have := q2 (by omega)
    rw [← q1 a hmem] at this
    omega

/-- One sample is left where two are asked for: with grey-value images it is delivered, with colour images not. -/
example : (∃ b s', getBatch 0 (Formats.demoImages [1, 1]) ⟨false, false⟩ 3 2 (init (Formats.demoImages [1, 1]) ⟨false, false⟩ ["p"] (.seed 0)) = some (.ok b, s')) ∧
    (∃ xs s', collect (Formats.demoImages [1, 1, 3]) ⟨false, false⟩ 3 2 (init (Formats.demoImages [1, 1, 3]) ⟨false, false⟩ ["p"] (.seed 0)) = some (.ok xs, s') ∧ xs.length = 1 ∧
      getBatch 0 (Formats.demoImages [1, 1, 3]) ⟨false, false⟩ 3 2 (init (Formats.demoImages [1, 1, 3]) ⟨false, false⟩ ["p"] (.seed 0)) = some (.error .valueError, s')) :=
  ⟨⟨_, _, rfl⟩, _, _, rfl, rfl, rfl⟩

end Verif.Base
