import Verif.Spec.Stack
import Verif.Props.Base
/-!
# Base schedulers inside wrappers
-/

namespace Verif.Stack
open Verif Base
variable {V D Key : Type}

theorem streamAfter_mem {c : String → List (Sample V)} {x : Sample V} : ∀ (l : List String) (o : Option String),
    x ∈ streamAfter c o l → ∃ p ∈ l, x ∈ c p
  | [], o, h => by simp [streamAfter] at h
  | a :: l, o, h => by
    rw [streamAfter, List.mem_append] at h
    rcases h with h | h
    · split at h
      · simp at h
      · exact ⟨a, List.mem_cons_self, h⟩
    · obtain ⟨p, hp, hx⟩ := streamAfter_mem l _ h
      exact ⟨p, List.mem_cons_of_mem _ hp, hx⟩

theorem rem_mem {c : String → List (Sample V)} {s : Base.St D Key} {x : Sample V} (h : x ∈ rem c s) :
    ∃ p ∈ s.fileList, x ∈ c p := by
  unfold rem at h
  have hsub : ∀ p ∈ s.fileList.drop s.index, p ∈ s.fileList := fun p hp => List.mem_of_mem_drop hp
  split at h
  · rename_i q d p rest hc hd
    rw [hd] at hsub
    split at h
    · rename_i hpq
      subst hpq
      rw [List.mem_append] at h
      rcases h with h | h
      · exact ⟨_, hsub _ List.mem_cons_self, List.mem_of_mem_drop h⟩
      · obtain ⟨p', hp, hx⟩ := streamAfter_mem _ _ h
        exact ⟨p', hsub _ (List.mem_cons_of_mem _ hp), hx⟩
    · obtain ⟨p', hp, hx⟩ := streamAfter_mem _ _ h
      exact ⟨p', hsub _ hp, hx⟩
  · simp at h
  · obtain ⟨p', hp, hx⟩ := streamAfter_mem _ _ h
    exact ⟨p', hsub _ hp, hx⟩

theorem shuffles_perm {w : World V D Key} {cfg : Base.Cfg} (hp : cfg.randomize = true → PermOK w) (x : List String × Key) :
    ∀ k, (shuffles w cfg x k).1.Perm x.1
  | 0 => List.Perm.refl _
  | k + 1 => by
    rw [shuffles_succ]
    exact (shuffle_perm hp _ _).trans (shuffles_perm hp x k)

theorem loopStream_mem {w : World V D Key} {cfg : Base.Cfg} (hp : cfg.randomize = true → PermOK w)
    {c : String → List (Sample V)} {s : Base.St D Key} {K : Nat} {x : Sample V} (h : x ∈ loopStream w cfg c s K) :
    ∃ p ∈ s.fileList, x ∈ c p := by
  rw [loopStream, List.mem_append, List.mem_flatMap] at h
  rcases h with h | ⟨k, _, h⟩
  · exact rem_mem h
  · obtain ⟨p, hpm, hx⟩ := streamAfter_mem _ _ h
    exact ⟨p, (shuffles_perm hp _ _).mem_iff.mp hpm, hx⟩

/-- A scheduler that does not loop keeps its file order and its key. -/
theorem getBatch_keep {zero : V} {w : World V D Key} {cfg : Base.Cfg} (hk : cfg.loop = false ∨ cfg.randomize = false)
    {fuel n : Nat} {s s' : Base.St D Key} {r} (h : Base.getBatch zero w cfg fuel n s = some (r, s')) :
    s'.fileList = s.fileList ∧ s'.key = s.key := by
  have fixed : cfg.randomize = false → s'.fileList = s.fileList ∧ s'.key = s.key := by
    intro hr
    obtain ⟨k, hk⟩ := getBatch_later h
    rw [shuffles_fixed w cfg hr] at hk
    simpa using hk
  rcases hk with hl | hr
  · have hts : ∀ (s : Base.St D Key) p d, (takeSlice w s p d).state.fileList = s.fileList ∧ (takeSlice w s p d).state.key = s.key := by
      intro s p d
      unfold takeSlice
      cases w.slice p d s.sliceIdx <;> exact ⟨rfl, rfl⟩
    have hbody : ∀ s : Base.St D Key, (body w s).state.fileList = s.fileList ∧ (body w s).state.key = s.key := by
      intro s
      unfold body
      split
      · exact ⟨rfl, rfl⟩
      · split
        · split
          · exact hts _ _ _
          · split
            · exact hts _ _ _
            · exact ⟨rfl, rfl⟩
        · split
          · exact hts _ _ _
          · exact ⟨rfl, rfl⟩
    have hiter : ∀ s : Base.St D Key, (iter w cfg s).state.fileList = s.fileList ∧ (iter w cfg s).state.key = s.key := by
      intro s
      unfold iter
      split
      · exact hbody s
      · rw [hl]; exact ⟨rfl, rfl⟩
    have hnext : ∀ (fuel : Nat) (s : Base.St D Key) r s', Base.getNext w cfg fuel s = some (r, s') →
        s'.fileList = s.fileList ∧ s'.key = s.key := by
      intro fuel
      induction fuel with
      | zero => intro s r s' h; simp [Base.getNext] at h
      | succ fuel ih =>
        intro s r s' h
        have hi := hiter s
        unfold Base.getNext at h
        cases hit : iter w cfg s with
        | cont s1 =>
          rw [hit] at h hi
          obtain ⟨h1, h2⟩ := ih s1 r s' h
          exact ⟨h1.trans hi.1, h2.trans hi.2⟩
        | ret x s1 => rw [hit] at h hi; simp only [Option.some.injEq, Prod.mk.injEq] at h; rw [← h.2]; exact hi
        | stop s1 => rw [hit] at h hi; simp only [Option.some.injEq, Prod.mk.injEq] at h; rw [← h.2]; exact hi
        | raise e s1 => rw [hit] at h hi; simp only [Option.some.injEq, Prod.mk.injEq] at h; rw [← h.2]; exact hi
    have hcol : ∀ (n : Nat) (s : Base.St D Key) r s', collect w cfg fuel n s = some (r, s') →
        s'.fileList = s.fileList ∧ s'.key = s.key := by
      intro n
      induction n with
      | zero => intro s r s' h; simp only [collect, Option.some.injEq, Prod.mk.injEq] at h; rw [h.2]; exact ⟨rfl, rfl⟩
      | succ n ih =>
        intro s r s' h
        unfold collect at h
        cases hg : Base.getNext w cfg fuel s with
        | none => rw [hg] at h; simp at h
        | some q =>
          obtain ⟨x, s1⟩ := q
          have h1 := hnext _ _ _ _ hg
          rw [hg] at h
          cases x with
          | stop => simp only [Option.some.injEq, Prod.mk.injEq] at h; rw [← h.2]; exact h1
          | raise e =>
            simp only at h
            split at h <;> (simp only [Option.some.injEq, Prod.mk.injEq] at h; rw [← h.2]; exact h1)
          | ret x =>
            simp only at h
            cases hc : collect w cfg fuel n s1 with
            | none => rw [hc] at h; simp at h
            | some q =>
              obtain ⟨y, s2⟩ := q
              have h2 := ih _ _ _ hc
              rw [hc] at h
              have h3 := And.intro (h2.1.trans h1.1) (h2.2.trans h1.2)
              cases y <;> (simp only [Option.some.injEq, Prod.mk.injEq] at h; rw [← h.2]; exact h3)
    unfold Base.getBatch at h
    cases hc : collect w cfg fuel n s with
    | none => rw [hc] at h; simp at h
    | some q =>
      obtain ⟨y, s1⟩ := q
      have h1 := hcol _ _ _ _ hc
      rw [hc] at h
      cases y with
      | error e => simp only [Option.some.injEq, Prod.mk.injEq] at h; rw [← h.2]; exact h1
      | ok b =>
        simp only [hl] at h
        split at h
        · simp at h; rw [← h.2]; exact h1
        · simp only [Option.some.injEq, Prod.mk.injEq] at h; rw [← h.2]; exact h1
  · exact fixed hr

/-- Such a scheduler is where `reset` leads from the start, whatever was fetched. -/
theorem reset_after_getBatch {zero : V} {w : World V D Key} {cfg : Base.Cfg} (hk : cfg.loop = false ∨ cfg.randomize = false)
    {fuel n : Nat} {s s' : Base.St D Key} {r} (h : Base.getBatch zero w cfg fuel n s = some (r, s')) :
    Base.reset w cfg s' = Base.reset w cfg s := by
  obtain ⟨h1, h2⟩ := getBatch_keep hk h
  simp [Base.reset, h1, h2]

/-- The facts about a base scheduler that C82 needs, in all states that satisfy the invariant. -/
theorem base_answers {zero : V} {w : World V D Key} {cfg : Base.Cfg} (hp : cfg.randomize = true → PermOK w) {fl : List String}
    {c : String → List (Sample V)} {fsh o1 o2 named} (hu : Uniform (fl.flatMap c) fsh o1 o2 named)
    (hlive : cfg.loop = true → ∃ p ∈ fl, c p ≠ []) {n : Nat} (hn : 0 < n) {fuel : Nat} (hf : 2 * fl.length < fuel)
    {s : Base.St D Key} (hi : Inv w c s) (hpm : s.fileList.Perm fl) :
    ∃ r s', Base.getBatch zero w cfg fuel n s = some (r, s') ∧ Inv w c s' ∧ s'.fileList.Perm fl ∧
      ∀ e, r = .error e → e = .stopIteration ∧ Base.getBatch zero w cfg fuel n s' = some (.error .stopIteration, s') := by
  have hlen := hpm.length_eq
  cases hl : cfg.loop with
  | false =>
    obtain ⟨s', h1, h2, h3, h4, h5⟩ := getBatch_nonloop zero hl n s hi
    refine ⟨_, s', h5 fuel (by omega), h1, by rw [h3]; exact hpm, ?_⟩
    intro e he
    by_cases ht : (rem c s).take n = []
    · rw [if_pos ht] at he
      simp only [Except.error.injEq] at he
      refine ⟨he.symm, ?_⟩
      have hb := h5 fuel (by omega)
      rw [if_pos ht] at hb
      have := C03_exhaustion_permanent zero w cfg hl fuel n hn s s' _ hb (.inl rfl) [n] fuel (by omega)
      simp only [runBatches, List.map_cons, List.map_nil] at this
      cases hg : Base.getBatch zero w cfg fuel n s' with
      | none => rw [hg] at this; simp at this
      | some q =>
        obtain ⟨r, s2⟩ := q
        rw [hg] at this
        simp only [Option.some.injEq, Prod.mk.injEq, List.cons.injEq, and_true] at this
        rw [this.1, this.2]
    · rw [if_neg ht] at he
      obtain ⟨b, hb, _⟩ := assemble_uniform zero cfg (n := n) ht (by rw [List.length_take]; omega)
        (fun h => by rw [hl] at h; simp at h)
        (uniform_sub hu (fun x hx => by
          obtain ⟨p, hp1, hp2⟩ := rem_mem (List.mem_of_mem_take hx)
          exact List.mem_flatMap.mpr ⟨p, hpm.mem_iff.mp hp1, hp2⟩))
      rw [hb] at he
      simp at he
  | true =>
    obtain ⟨p, hpf, hpc⟩ := hlive hl
    obtain ⟨xs, s', j, h0, h1, h2, h3, h4⟩ := getBatch_loop zero hl hp n hn s hi ⟨p, hpm.mem_iff.mpr hpf, hpc⟩
    refine ⟨_, s', h4 fuel (by omega), h1, h2.trans hpm, ?_⟩
    intro e he
    have hne : xs ≠ [] := by intro h; rw [h] at h0; simp at h0; omega
    obtain ⟨b, hb, _⟩ := assemble_uniform zero cfg (n := n) hne (by omega) (fun _ => h0)
      (uniform_sub hu (fun x hx => by
        have hx' : x ∈ loopStream w cfg c s (0 + j) := by rw [h3]; exact List.mem_append_left _ hx
        obtain ⟨q, hq1, hq2⟩ := loopStream_mem hp hx'
        exact List.mem_flatMap.mpr ⟨q, hpm.mem_iff.mp hq1, hq2⟩))
    rw [hb] at he
    simp at he

end Verif.Stack
