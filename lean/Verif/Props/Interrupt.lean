import Verif.Spec.Interrupt
import Verif.Proofs.BaseRun
/-!
# C175: calls of a scheduler that are interrupted
-/

namespace Verif.Interrupt
open Verif Base
open scoped List

variable {V D Key : Type}

theorem steps_add (w : World V D Key) (c : Cfg) (m n : Nat) (x : Pc V D × Raw D Key) : steps w c (m + n) x = steps w c n (steps w c m x) := by
  induction m generalizing x with
  | zero => rw [Nat.zero_add]; rfl
  | succ m ih => rw [Nat.succ_add]; exact ih _

theorem steps_done (w : World V D Key) (c : Cfg) (n : Nat) (r : Next V) (s : Raw D Key) : steps w c n (.done r, s) = (.done r, s) := by
  induction n with
  | zero => rfl
  | succ n ih => exact ih

/-- Where a call ends does not depend on when one begins to look. -/
theorem reaches_steps (w : World V D Key) (c : Cfg) (m : Nat) (x : Pc V D × Raw D Key) (r : Next V) (s : Raw D Key) :
    (∃ n, steps w c n (steps w c m x) = (.done r, s)) ↔ ∃ n, steps w c n x = (.done r, s) := by
  constructor
  · rintro ⟨n, h⟩
    exact ⟨m + n, by rw [steps_add, h]⟩
  · rintro ⟨n, h⟩
    refine ⟨n, ?_⟩
    rw [← steps_add, Nat.add_comm, steps_add, h, steps_done]

theorem ends_unique {w : World V D Key} {c : Cfg} {s : Raw D Key} {r r' : Next V} {s1 s2 : Raw D Key} (h1 : Ends w c s r s1) (h2 : Ends w c s r' s2) :
    r = r' ∧ s1 = s2 := by
  obtain ⟨n, h1⟩ := h1
  obtain ⟨m, h2⟩ := h2
  have e1 : steps w c (n + m) (.head, s) = (.done r, s1) := by rw [steps_add, h1, steps_done]
  have e2 : steps w c (n + m) (.head, s) = (.done r', s2) := by rw [Nat.add_comm, steps_add, h2, steps_done]
  rw [e1] at e2
  injection e2 with a b
  injection a with a
  exact ⟨a, b⟩

/-- What holds of the attributes at each place. -/
private def J (w : World V D Key) (c : Cfg) : Pc V D → Raw D Key → Prop
  | .head, s => s.fileList ≠ []
  | .resetIndex b, s => s.fileList ≠ [] ∧ b = true ∧ ¬ s.index < s.fileList.length ∧ c.loop = true
  | .resetSlice b, s | .resetData b, s | .resetFile b, s => s.fileList ≠ [] ∧ b = true ∧ s.index = 0
  | .resetKey b, s => s.fileList ≠ [] ∧ b = true ∧ s.index = 0 ∧ c.randomize = true
  | .resetList b idx, s => idx ≠ [] ∧ b = true ∧ s.index = 0
  | .path, s => s.index < s.fileList.length
  | .dropFile p, s => s.fileList[s.index]? = some p ∧ s.cachedFile ≠ some p
  | .dropData p, s => s.fileList[s.index]? = some p ∧ s.cachedFile = none
  | .load p, s => s.fileList[s.index]? = some p ∧ s.cachedFile = none ∧ s.cachedData = none
  | .setFile p, s => s.fileList[s.index]? = some p ∧ s.cachedFile = none ∧ ∃ d, w.load p = .ok d ∧ s.cachedData = some d
  | .setSlice, s => ∃ p, s.fileList[s.index]? = some p ∧ s.cachedFile = some p
  | .slice, s => ∃ p, s.fileList[s.index]? = some p ∧ s.cachedFile = some p
  | .bump x, s => ∃ p d, s.fileList[s.index]? = some p ∧ s.cachedFile = some p ∧ s.cachedData = some d ∧ w.slice p d s.sliceIdx = .ok x
  | .skip, s => (∃ p d, s.fileList[s.index]? = some p ∧ s.cachedFile = some p ∧ s.cachedData = some d ∧ w.slice p d s.sliceIdx = .ended) ∨
      (∃ p e, s.fileList[s.index]? = some p ∧ s.cachedFile = none ∧ s.cachedData = none ∧ w.load p = .error e)
  | .done _, s => s.fileList ≠ []
  | .wasReset, _ => False

private theorem ne_of_get {s : Raw D Key} {p : String} (h : s.fileList[s.index]? = some p) : s.fileList ≠ [] := by
  intro e
  rw [e] at h
  simp at h

private theorem lt_of_get {s : Raw D Key} {p : String} (h : s.fileList[s.index]? = some p) : s.index < s.fileList.length :=
  (List.getElem?_eq_some_iff.1 h).1

private theorem J_step {w : World V D Key} {c : Cfg} (hp : c.randomize = true → PermOK w) {pc : Pc V D} {s : Raw D Key} (h : J w c pc s) :
    J w c (step w c (pc, s)).1 (step w c (pc, s)).2 := by
  cases pc with
  | head =>
    simp only [step]
    split
    · assumption
    · split
      · exact ⟨h, rfl, by assumption, by assumption⟩
      · exact h
  | resetIndex b => exact ⟨h.1, h.2.1, rfl⟩
  | resetSlice b => exact h
  | resetData b => exact h
  | resetFile b =>
    obtain ⟨h1, rfl, h3⟩ := h
    simp only [step]
    split
    · exact ⟨h1, rfl, h3, by assumption⟩
    · show s.index < s.fileList.length
      rw [h3]
      exact List.length_pos_iff.2 h1
  | resetKey b =>
    obtain ⟨h1, rfl, h3, h4⟩ := h
    refine ⟨?_, rfl, h3⟩
    rw [← List.length_pos_iff, (hp h4 _ _).length_eq, List.length_range]
    exact List.length_pos_iff.2 h1
  | resetList b idx =>
    obtain ⟨h1, rfl, h3⟩ := h
    show s.index < (pick s.fileList idx).length
    rw [h3, pick, List.length_map]
    exact List.length_pos_iff.2 h1
  | path =>
    simp only [step]
    have h' : s.index < s.fileList.length := h
    rw [List.getElem?_eq_getElem h']
    dsimp only
    split
    · exact ⟨_, List.getElem?_eq_getElem h', by assumption⟩
    · exact ⟨List.getElem?_eq_getElem h', by assumption⟩
  | dropFile p => exact ⟨h.1, rfl⟩
  | dropData p => exact ⟨h.1, h.2, rfl⟩
  | load p =>
    simp only [step]
    cases hl : w.load p with
    | ok d => exact ⟨h.1, h.2.1, d, hl, rfl⟩
    | error e => exact .inr ⟨p, e, h.1, h.2.1, h.2.2, hl⟩
  | setFile p => exact ⟨p, h.1, rfl⟩
  | setSlice => exact h
  | slice =>
    obtain ⟨p, h1, h2⟩ := h
    simp only [step, h2]
    cases hd : s.cachedData with
    | none => exact ne_of_get h1
    | some d =>
      dsimp only
      cases hs : w.slice p d s.sliceIdx with
      | ok x => exact ⟨p, d, h1, h2, hd, hs⟩
      | ended => exact .inl ⟨p, d, h1, h2, hd, hs⟩
      | fail e => exact ne_of_get h1
  | bump x =>
    obtain ⟨p, d, h1, _⟩ := h
    exact ne_of_get h1
  | skip =>
    rcases h with ⟨p, d, h1, _⟩ | ⟨p, e, h1, _⟩
    · exact ne_of_get (s := s) h1
    · exact ne_of_get (s := s) h1
  | done r => exact h
  | wasReset => exact h

private theorem J_steps {w : World V D Key} {c : Cfg} (hp : c.randomize = true → PermOK w) (n : Nat) {x : Pc V D × Raw D Key} (h : J w c x.1 x.2) :
    J w c (steps w c n x).1 (steps w c n x).2 := by
  induction n generalizing x with
  | zero => exact h
  | succ n ih => exact ih (J_step hp h)

private theorem head_path {w : World V D Key} {c : Cfg} {s : Raw D Key} (h : s.index < s.fileList.length) : steps w c 1 (.head, s) = (.path, s) := by
  simp only [steps, step, if_pos h]

private theorem head_slice {w : World V D Key} {c : Cfg} {s : Raw D Key} {p : String} (h1 : s.fileList[s.index]? = some p) (h2 : s.cachedFile = some p) :
    steps w c 2 (.head, s) = (.slice, s) := by
  rw [show 2 = 1 + 1 from rfl, steps_add, head_path (lt_of_get h1)]
  simp only [steps, step, h1, h2, if_true]

private theorem head_drop {w : World V D Key} {c : Cfg} {s : Raw D Key} {p : String} (h1 : s.fileList[s.index]? = some p) (h2 : s.cachedFile ≠ some p) :
    steps w c 2 (.head, s) = (.dropFile p, s) := by
  rw [show 2 = 1 + 1 from rfl, steps_add, head_path (lt_of_get h1)]
  simp only [steps, step, h1, if_neg h2]

/-- Beginning again at any place that is not torn leads to that place, or to a later one. -/
private theorem meets {w : World V D Key} {c : Cfg} {pc : Pc V D} {s : Raw D Key} (h : J w c pc s) (ht : ¬ Torn pc) (hd : ∀ r, pc ≠ .done r) :
    ∃ m, steps w c m (.head, s) = (pc, s) := by
  cases pc with
  | head => exact ⟨0, rfl⟩
  | resetIndex b =>
    obtain ⟨_, rfl, h2, h3⟩ := h
    exact ⟨1, by simp only [steps, step, if_neg h2, h3, if_true]⟩
  | resetSlice b => exact absurd trivial ht
  | resetData b => exact absurd trivial ht
  | resetFile b => exact absurd trivial ht
  | resetKey b => exact absurd trivial ht
  | resetList b idx => exact absurd trivial ht
  | path => exact ⟨1, head_path h⟩
  | dropFile p => exact ⟨2, head_drop h.1 h.2⟩
  | dropData p =>
    refine ⟨2 + 1, ?_⟩
    rw [steps_add, head_drop h.1 (by rw [h.2]; simp)]
    obtain ⟨_, h2⟩ := h
    cases s
    simp only at h2
    subst h2
    rfl
  | load p =>
    refine ⟨2 + 2, ?_⟩
    rw [steps_add, head_drop h.1 (by rw [h.2.1]; simp)]
    obtain ⟨_, h2, h3⟩ := h
    cases s
    simp only at h2 h3
    subst h2 h3
    rfl
  | setFile p =>
    refine ⟨2 + 3, ?_⟩
    rw [steps_add, head_drop h.1 (by rw [h.2.1]; simp)]
    obtain ⟨_, h2, d, h3, h4⟩ := h
    cases s
    simp only at h2 h4
    subst h2 h4
    simp only [steps, step, h3]
  | setSlice => exact absurd trivial ht
  | slice =>
    obtain ⟨p, h1, h2⟩ := h
    exact ⟨2, head_slice h1 h2⟩
  | bump x =>
    obtain ⟨p, d, h1, h2, h3, h4⟩ := h
    refine ⟨2 + 1, ?_⟩
    rw [steps_add, head_slice h1 h2]
    simp only [steps, step, h2, h3, h4]
  | skip =>
    rcases h with ⟨p, d, h1, h2, h3, h4⟩ | ⟨p, e, h1, h2, h3, h4⟩
    · refine ⟨2 + 1, ?_⟩
      rw [steps_add, head_slice h1 h2]
      simp only [steps, step, h2, h3, h4]
    · refine ⟨2 + 3, ?_⟩
      rw [steps_add, head_drop h1 (by rw [h2]; simp)]
      cases s
      simp only at h2 h3
      subst h2 h3
      simp only [steps, step, h4]
  | done r => exact absurd rfl (hd r)
  | wasReset => exact absurd h id

private theorem J_nonempty {w : World V D Key} {c : Cfg} {pc : Pc V D} {s : Raw D Key} (h : J w c pc s) (ht : ¬ Torn pc) : s.fileList ≠ [] := by
  cases pc with
  | head => exact h
  | resetIndex b => exact h.1
  | resetSlice b => exact h.1
  | resetData b => exact h.1
  | resetFile b => exact h.1
  | resetKey b => exact h.1
  | resetList b idx => exact absurd trivial ht
  | path => exact List.length_pos_iff.1 (Nat.lt_of_le_of_lt (Nat.zero_le _) h)
  | dropFile p => exact ne_of_get h.1
  | dropData p => exact ne_of_get h.1
  | load p => exact ne_of_get h.1
  | setFile p => exact ne_of_get h.1
  | setSlice => exact ne_of_get h.choose_spec.1
  | slice => exact ne_of_get h.choose_spec.1
  | bump x =>
    obtain ⟨p, d, h1, _⟩ := h
    exact ne_of_get h1
  | skip =>
    rcases h with ⟨p, d, h1, _⟩ | ⟨p, e, h1, _⟩
    · exact ne_of_get h1
    · exact ne_of_get h1
  | done r => exact h
  | wasReset => exact absurd h id

theorem steps_nonempty {w : World V D Key} {c : Cfg} (hp : c.randomize = true → PermOK w) {s s' : Raw D Key} (hs : s.fileList ≠ []) {n : Nat} {pc : Pc V D}
    (h : steps w c n (.head, s) = (pc, s')) (ht : ¬ Torn pc) : s'.fileList ≠ [] := by
  have hJ := J_steps hp n (x := (.head, s)) hs
  rw [h] at hJ
  exact J_nonempty hJ ht

theorem serves_nonempty {w : World V D Key} {c : Cfg} (hp : c.randomize = true → PermOK w) {s s' : Raw D Key} (hs : s.fileList ≠ []) {rs : List (Next V)}
    (h : Serves w c s rs s') : s'.fileList ≠ [] := by
  induction h with
  | nil => exact hs
  | cons h _ ih =>
    obtain ⟨n, h⟩ := h
    exact ih (steps_nonempty hp hs h id)

/-- **C175** (partial). A call is interrupted at any place that is not torn, in any state. Then the next call ends exactly as the interrupted one would have
ended; or the interrupted call was over but for returning its result, which is lost. -/
theorem C175_resumes_partial (w : World V D Key) (c : Cfg) (hp : c.randomize = true → PermOK w) (s : Raw D Key) (hs : s.fileList ≠ []) (n : Nat)
    (pc : Pc V D) (s' : Raw D Key) (h : steps w c n (.head, s) = (pc, s')) (ht : ¬ Torn pc) :
    (∀ r s'', Ends w c s' r s'' ↔ Ends w c s r s'') ∨ ∃ r, pc = .done r ∧ Ends w c s r s' := by
  have hJ : J w c pc s' := by
    have := J_steps hp n (x := (.head, s)) hs
    rw [h] at this
    exact this
  by_cases hd : ∃ r, pc = .done r
  · obtain ⟨r, rfl⟩ := hd
    exact .inr ⟨r, rfl, n, h⟩
  · obtain ⟨m, hm⟩ := meets hJ ht (fun r e => hd ⟨r, e⟩)
    refine .inl fun r s'' => ?_
    show (∃ n, _) ↔ ∃ n, _
    rw [← reaches_steps w c m (.head, s'), ← reaches_steps w c n (.head, s), hm, h]

/-- **C175** (histories). Some of the calls are interrupted, any number of them, at places that are not torn. Then the other calls end like calls without
interruptions from which at most one is left out per interruption: nothing is delivered twice or in another order. And the calls after that end like those after
the calls without interruptions. -/
theorem C175_history (w : World V D Key) (c : Cfg) (hp : c.randomize = true → PermOK w) (s : Raw D Key) (hs : s.fileList ≠ []) (rs : List (Next V)) (k : Nat)
    (s' : Raw D Key) (h : History w c s rs k s') :
    ∃ all t, rs <+ all ∧ all.length ≤ rs.length + k ∧ Serves w c s all t ∧ ∀ r s'', Ends w c s' r s'' ↔ Ends w c t r s'' := by
  induction h with
  | nil s => exact ⟨[], s, List.Sublist.refl _, Nat.le_refl _, .nil s, fun _ _ => Iff.rfl⟩
  | @call s r s1 rs k s2 he _ ih =>
    obtain ⟨n, hn⟩ := he
    have hJ := J_steps hp n (x := (.head, s)) hs
    rw [hn] at hJ
    obtain ⟨all, t, h1, h2, h3, h4⟩ := ih (J_nonempty hJ id)
    exact ⟨r :: all, t, h1.cons_cons r, by simp only [List.length_cons]; omega, .cons ⟨n, hn⟩ h3, h4⟩
  | @interrupted s pc s1 rs k s2 n hn ht _ ih =>
    have hJ := J_steps hp n (x := (.head, s)) hs
    rw [hn] at hJ
    obtain ⟨all, t, h1, h2, h3, h4⟩ := ih (J_nonempty hJ ht)
    rcases C175_resumes_partial w c hp s hs n pc s1 hn ht with he | ⟨r, _, he⟩
    · cases h3 with
      | nil => exact ⟨[], s, h1, by simp only [List.length_nil]; omega, .nil s, fun r s'' => (h4 r s'').trans (he r s'')⟩
      | @cons _ r u rs' _ he' h3 => exact ⟨r :: rs', t, h1, by omega, .cons ((he r u).1 he') h3, h4⟩
    · exact ⟨r :: all, t, h1.cons r, by simp only [List.length_cons]; omega, .cons he h3, h4⟩

/-! ## The machine and the model without interruptions -/

private theorem take_steps (w : World V D Key) (c : Cfg) (s : Base.St D Key) (p : String) (d : D) (h : s.cached = some (p, d)) :
    ∃ m, 1 ≤ m ∧ match takeSlice w s p d with
      | .cont s1 => steps w c m (.slice, Raw.of s) = (.head, Raw.of s1)
      | .ret x s1 => steps w c m (.slice, Raw.of s) = (.done (.ret x), Raw.of s1)
      | .stop s1 => steps w c m (.slice, Raw.of s) = (.done .stop, Raw.of s1)
      | .raise e s1 => steps w c m (.slice, Raw.of s) = (.done (.raise e), Raw.of s1) := by
  have h1 : (Raw.of s).cachedFile = some p := by simp [Raw.of, h]
  have h2 : (Raw.of s).cachedData = some d := by simp [Raw.of, h]
  have h3 : (Raw.of s).sliceIdx = s.sliceIdx := rfl
  unfold takeSlice
  cases hs : w.slice p d s.sliceIdx with
  | ok x =>
    refine ⟨2, by omega, ?_⟩
    simp only [steps, step, h1, h2, h3, hs]
    simp only [Raw.of, h, Option.map_some]
  | ended =>
    refine ⟨2, by omega, ?_⟩
    simp only [steps, step, h1, h2, h3, hs]
    simp only [Raw.of, h, Option.map_some]
  | fail e =>
    refine ⟨1, by omega, ?_⟩
    simp only [steps, step, h1, h2, h3, hs]

private theorem load_steps (w : World V D Key) (c : Cfg) (s : Base.St D Key) (p : String) (h : s.fileList[s.index]? = some p) (hc : s.cached.map Prod.fst ≠ some p) :
    ∃ m, 1 ≤ m ∧ match (match w.load p with
        | .ok d' => takeSlice w { s with cached := some (p, d'), sliceIdx := 0 } p d'
        | .error _ => Step.cont { s with cached := none, index := s.index + 1 }) with
      | .cont s1 => steps w c m (.path, Raw.of s) = (.head, Raw.of s1)
      | .ret x s1 => steps w c m (.path, Raw.of s) = (.done (.ret x), Raw.of s1)
      | .stop s1 => steps w c m (.path, Raw.of s) = (.done .stop, Raw.of s1)
      | .raise e s1 => steps w c m (.path, Raw.of s) = (.done (.raise e), Raw.of s1) := by
  have h1 : (Raw.of s).fileList[(Raw.of s).index]? = some p := h
  have h2 : (Raw.of s).cachedFile ≠ some p := hc
  have e0 : step w c (.path, Raw.of s) = (.dropFile p, Raw.of s) := by
    simp only [step, h1, if_neg h2]
  cases hl : w.load p with
  | error e =>
    refine ⟨5, by omega, ?_⟩
    simp only [steps, e0]
    simp only [step, hl]
    rfl
  | ok d =>
    obtain ⟨m, hm, ht⟩ := take_steps w c { s with cached := some (p, d), sliceIdx := 0 } p d rfl
    refine ⟨6 + m, by omega, ?_⟩
    have e6 : steps w c 6 (.path, Raw.of s) = (.slice, Raw.of { s with cached := some (p, d), sliceIdx := 0 }) := by
      simp only [steps, e0]
      simp only [step, hl]
      rfl
    rw [steps_add, e6]
    exact ht

private theorem body_steps (w : World V D Key) (c : Cfg) (s : Base.St D Key) :
    ∃ m, 1 ≤ m ∧ match body w s with
      | .cont s1 => steps w c m (.path, Raw.of s) = (.head, Raw.of s1)
      | .ret x s1 => steps w c m (.path, Raw.of s) = (.done (.ret x), Raw.of s1)
      | .stop s1 => steps w c m (.path, Raw.of s) = (.done .stop, Raw.of s1)
      | .raise e s1 => steps w c m (.path, Raw.of s) = (.done (.raise e), Raw.of s1) := by
  unfold body
  cases hp : s.fileList[s.index]? with
  | none =>
    refine ⟨1, by omega, ?_⟩
    have h1 : (Raw.of s).fileList[(Raw.of s).index]? = none := hp
    simp only [steps, step, h1]
  | some p =>
    dsimp only
    have h1 : (Raw.of s).fileList[(Raw.of s).index]? = some p := hp
    cases hc : s.cached with
    | none =>
      dsimp only
      exact load_steps w c s p hp (by rw [hc]; simp)
    | some qd =>
      obtain ⟨q, d⟩ := qd
      dsimp only
      by_cases hq : q = p
      · subst hq
        rw [if_pos rfl]
        obtain ⟨m, hm, ht⟩ := take_steps w c s q d hc
        refine ⟨1 + m, by omega, ?_⟩
        have e1 : steps w c 1 (.path, Raw.of s) = (.slice, Raw.of s) := by
          have h2 : (Raw.of s).cachedFile = some q := by simp [Raw.of, hc]
          simp only [steps, step, h1, h2, if_true]
        rw [steps_add, e1]
        exact ht
      · rw [if_neg hq]
        exact load_steps w c s p hp (by rw [hc]; simpa using hq)

/-- `reset` assignment by assignment. -/
theorem reset_steps (w : World V D Key) (c : Cfg) (b : Bool) (r : Raw D Key) :
    ∃ m, steps w c m (.resetIndex b, r) =
      (afterReset b, Raw.of (Base.reset w c { fileList := r.fileList, index := r.index, cached := none, sliceIdx := r.sliceIdx, key := r.key })) := by
  cases hr : c.randomize with
  | true =>
    refine ⟨6, ?_⟩
    simp only [steps, step, hr, if_true, Base.reset, shuffle, Raw.of, Option.map_none]
  | false =>
    refine ⟨4, ?_⟩
    simp only [steps, step, hr, Base.reset, shuffle, Raw.of, Option.map_none]
    rfl

private theorem iter_steps (w : World V D Key) (c : Cfg) (s : Base.St D Key) :
    ∃ m, 1 ≤ m ∧ match iter w c s with
      | .cont s1 => steps w c m (.head, Raw.of s) = (.head, Raw.of s1)
      | .ret x s1 => steps w c m (.head, Raw.of s) = (.done (.ret x), Raw.of s1)
      | .stop s1 => steps w c m (.head, Raw.of s) = (.done .stop, Raw.of s1)
      | .raise e s1 => steps w c m (.head, Raw.of s) = (.done (.raise e), Raw.of s1) := by
  unfold iter
  by_cases hi : s.index < s.fileList.length
  · rw [if_pos hi]
    obtain ⟨m, hm, ht⟩ := body_steps w c s
    refine ⟨1 + m, by omega, ?_⟩
    rw [steps_add, head_path (s := Raw.of s) hi]
    exact ht
  · rw [if_neg hi]
    by_cases hl : c.loop = true
    · rw [if_pos hl]
      obtain ⟨m, hm, ht⟩ := body_steps w c (Base.reset w c s)
      obtain ⟨k, hk⟩ := reset_steps w c true (Raw.of s)
      refine ⟨1 + k + m, by omega, ?_⟩
      have e1 : steps w c 1 (.head, Raw.of s) = (.resetIndex true, Raw.of s) := by
        have hi' : ¬ (Raw.of s).index < (Raw.of s).fileList.length := hi
        simp only [steps, step, if_neg hi', hl, if_true]
      rw [steps_add, steps_add, e1, hk]
      exact ht
    · rw [if_neg hl]
      refine ⟨1, by omega, ?_⟩
      have hi' : ¬ (Raw.of s).index < (Raw.of s).fileList.length := hi
      simp only [steps, step, if_neg hi', if_neg hl]

/-- **C175** (the machine is the code). Executed assignment by assignment, a call that is not interrupted ends exactly as in the model without interruptions. -/
theorem C175_agrees (w : World V D Key) (c : Cfg) (s : Base.St D Key) (r : Next V) (s' : Raw D Key) :
    Ends w c (Raw.of s) r s' ↔ ∃ fuel t, Base.getNext w c fuel s = some (r, t) ∧ s' = Raw.of t := by
  constructor
  · rintro ⟨n, hn⟩
    induction n using Nat.strong_induction_on generalizing s with
    | _ n ih =>
      obtain ⟨m, hm, ht⟩ := iter_steps w c s
      cases hi : iter w c s with
      | cont s1 =>
        rw [hi] at ht
        dsimp only at ht
        by_cases hmn : m ≤ n
        · have : steps w c (n - m) (.head, Raw.of s1) = (.done r, s') := by
            rw [← ht, ← steps_add, Nat.add_sub_cancel' hmn, hn]
          obtain ⟨fuel, t, h1, h2⟩ := ih (n - m) (by omega) s1 this
          refine ⟨fuel + 1, t, ?_, h2⟩
          rw [getNext, hi]
          exact h1
        · have e : steps w c m (.head, Raw.of s) = (.done r, s') := by
            rw [show m = n + (m - n) by omega, steps_add, hn, steps_done]
          rw [ht] at e
          injection e with e _
          cases e
      | ret x s1 =>
        rw [hi] at ht
        obtain ⟨e1, e2⟩ := ends_unique ⟨n, hn⟩ ⟨m, ht⟩
        exact ⟨1, s1, by rw [getNext, hi, e1], e2⟩
      | stop s1 =>
        rw [hi] at ht
        obtain ⟨e1, e2⟩ := ends_unique ⟨n, hn⟩ ⟨m, ht⟩
        exact ⟨1, s1, by rw [getNext, hi, e1], e2⟩
      | raise e s1 =>
        rw [hi] at ht
        obtain ⟨e1, e2⟩ := ends_unique ⟨n, hn⟩ ⟨m, ht⟩
        exact ⟨1, s1, by rw [getNext, hi, e1], e2⟩
  · rintro ⟨fuel, t, h, rfl⟩
    induction fuel generalizing s with
    | zero => simp [getNext] at h
    | succ fuel ih =>
      obtain ⟨m, hm, ht⟩ := iter_steps w c s
      rw [getNext] at h
      cases hi : iter w c s with
      | cont s1 =>
        rw [hi] at h ht
        obtain ⟨n, hn⟩ := ih s1 h
        exact ⟨m + n, by rw [steps_add, ht, hn]⟩
      | ret x s1 =>
        rw [hi] at h ht
        simp only [Option.some.injEq, Prod.mk.injEq] at h
        obtain ⟨rfl, rfl⟩ := h
        exact ⟨m, ht⟩
      | stop s1 =>
        rw [hi] at h ht
        simp only [Option.some.injEq, Prod.mk.injEq] at h
        obtain ⟨rfl, rfl⟩ := h
        exact ⟨m, ht⟩
      | raise e s1 =>
        rw [hi] at h ht
        simp only [Option.some.injEq, Prod.mk.injEq] at h
        obtain ⟨rfl, rfl⟩ := h
        exact ⟨m, ht⟩

/-! ## Reset -/

private def K (pc : Pc V D) (s : Raw D Key) (l : List String) (c : Cfg) : Prop :=
  s.fileList.Perm l ∧ match pc with
    | .resetKey _ => c.randomize = true
    | .resetList _ idx => idx.Perm (List.range s.fileList.length)
    | _ => True

private theorem K_step {w : World V D Key} {c : Cfg} (hp : c.randomize = true → PermOK w) {l : List String} {pc : Pc V D} {s : Raw D Key} (h : K pc s l c) :
    K (step w c (pc, s)).1 (step w c (pc, s)).2 l c := by
  cases pc with
  | head => simp only [step]; split <;> [exact ⟨h.1, trivial⟩; (split <;> exact ⟨h.1, trivial⟩)]
  | resetIndex b => exact ⟨h.1, trivial⟩
  | resetSlice b => exact ⟨h.1, trivial⟩
  | resetData b => exact ⟨h.1, trivial⟩
  | resetFile b =>
    simp only [step]
    split
    · exact ⟨h.1, by assumption⟩
    · cases b <;> exact ⟨h.1, trivial⟩
  | resetKey b => exact ⟨h.1, hp h.2 _ _⟩
  | resetList b idx => cases b <;> exact ⟨(pick_perm h.2).trans h.1, trivial⟩
  | path =>
    simp only [step]
    split
    · exact ⟨h.1, trivial⟩
    · split <;> exact ⟨h.1, trivial⟩
  | dropFile p => exact ⟨h.1, trivial⟩
  | dropData p => exact ⟨h.1, trivial⟩
  | load p => simp only [step]; split <;> exact ⟨h.1, trivial⟩
  | setFile p => exact ⟨h.1, trivial⟩
  | setSlice => exact ⟨h.1, trivial⟩
  | slice =>
    simp only [step]
    split
    · split <;> exact ⟨h.1, trivial⟩
    · exact ⟨h.1, trivial⟩
  | bump x => exact ⟨h.1, trivial⟩
  | skip => exact ⟨h.1, trivial⟩
  | done r => exact h
  | wasReset => exact h

private theorem K_steps {w : World V D Key} {c : Cfg} (hp : c.randomize = true → PermOK w) {l : List String} (n : Nat) {x : Pc V D × Raw D Key} (h : K x.1 x.2 l c) :
    K (steps w c n x).1 (steps w c n x).2 l c := by
  induction n generalizing x with
  | zero => exact h
  | succ n ih => exact ih (K_step hp h)

/-- **C175** (recovery). Whatever has been interrupted and wherever, a call or `reset`: after a `reset` that is not interrupted the scheduler begins anew, with the
same files (in another order if they are shuffled) and nothing in the cache. -/
theorem C175_recovers (w : World V D Key) (c : Cfg) (hp : c.randomize = true → PermOK w) (s : Raw D Key) (start : Pc V D)
    (hstart : start = .head ∨ start = .resetIndex false) (n : Nat) (pc : Pc V D) (s' : Raw D Key) (h : steps w c n (start, s) = (pc, s')) :
    ∃ (k : Nat) (t : Base.St D Key), steps w c k (.resetIndex false, s') = (.wasReset, Raw.of t) ∧ t.fileList.Perm s.fileList ∧ t.index = 0 ∧ t.cached = none ∧ t.sliceIdx = 0 := by
  obtain ⟨k, hk⟩ := reset_steps w c false s'
  refine ⟨k, _, hk, ?_, rfl, rfl, rfl⟩
  have hK := K_steps hp (l := s.fileList) n (x := (start, s)) (by rcases hstart with rfl | rfl <;> exact ⟨List.Perm.refl _, trivial⟩)
  rw [h] at hK
  exact (shuffle_perm hp _ _).trans hK.1

/-! ## Where interruptions do harm -/

/-- Two files for examples, with two and three flow fields. -/
def demoWorld : World Nat Nat Nat where
  load p := if p = "a" then .ok 2 else if p = "b" then .ok 3 else .error .valueError
  slice p d i := if i < d then .ok ⟨⟨[], [i]⟩, none, none, some [p]⟩ else .ended
  split k := (k + 1, k)
  perm _ n := List.range n

/-- A state after all of `a` has been delivered. -/
def demoState : Raw Nat Nat := { fileList := ["a", "b"], index := 0, cachedFile := some "a", cachedData := some 2, sliceIdx := 2, key := 0 }

/-- A call in that state that is interrupted in `load_file`, and the next one: the first flow field of `b`. -/
example : ∃ s', steps demoWorld ⟨false, false⟩ 8 (.head, demoState) = (.load "b", s') ∧ ¬ Torn (.load "b" : Pc Nat Nat) ∧
    ∃ s'', Ends demoWorld ⟨false, false⟩ s' (.ret ⟨⟨[], [0]⟩, none, none, some ["b"]⟩) s'' :=
  ⟨_, rfl, id, _, 9, rfl⟩

/-- A history: one call, one that is interrupted before it returns, one that is interrupted while a file is loaded, another call. -/
example : ∃ s', History demoWorld ⟨false, false⟩ { demoState with sliceIdx := 0 }
    [.ret ⟨⟨[], [0]⟩, none, none, some ["a"]⟩, .ret ⟨⟨[], [0]⟩, none, none, some ["b"]⟩] 2 s' :=
  ⟨_, .call ⟨4, rfl⟩ (.interrupted 4 rfl id (.interrupted 8 rfl id (.call ⟨9, rfl⟩ (.nil _))))⟩

/-- **C175 is false between `_cached_file = path` and `_slice_idx = 0`**: the number of flow fields delivered from the file before remains, and that many are
skipped in the next file. Here the interrupted call would have returned flow field 0 of `b`; after it comes flow field 2, and then nothing. -/
theorem C175_refuted_skips : ∃ (w : World Nat Nat Nat) (c : Cfg) (s s1 s2 s3 : Raw Nat Nat) (n : Nat) (pc : Pc Nat Nat),
    (∃ t, Ends w c s (.ret ⟨⟨[], [0]⟩, none, none, some ["b"]⟩) t) ∧ steps w c n (.head, s) = (pc, s1) ∧ (∀ r, pc ≠ .done r) ∧
    Ends w c s1 (.ret ⟨⟨[], [2]⟩, none, none, some ["b"]⟩) s2 ∧ Ends w c s2 .stop s3 :=
  ⟨demoWorld, ⟨false, false⟩, demoState, _, _, _, 10, _, ⟨_, 13, rfl⟩, rfl, (fun _ h => by cases h), ⟨4, rfl⟩, ⟨5, rfl⟩⟩

/-- **C175 is false in `reset`**: with one file, a `reset` interrupted between `_cached_data = None` and `_cached_file = None` makes all further calls fail with
`RuntimeError`, although the file is there. -/
theorem C175_refuted_stuck : ∃ (w : World Nat Nat Nat) (c : Cfg) (s s1 : Raw Nat Nat) (n : Nat) (pc : Pc Nat Nat),
    s.fileList = ["a"] ∧ (∃ x t, Ends w c s (.ret x) t) ∧ steps w c n (.resetIndex false, s) = (pc, s1) ∧
    ∀ rs t, Serves w c s1 rs t → t = s1 ∧ ∀ r ∈ rs, r = .raise .runtimeError := by
  refine ⟨demoWorld, ⟨true, false⟩, { demoState with fileList := ["a"], sliceIdx := 1 }, _, 3, _, rfl, ⟨_, _, 4, rfl⟩, rfl, ?_⟩
  intro rs t h
  have he : Ends demoWorld ⟨true, false⟩ (steps demoWorld ⟨true, false⟩ 3 (.resetIndex false, { demoState with fileList := ["a"], sliceIdx := 1 })).2 (.raise .runtimeError)
      (steps demoWorld ⟨true, false⟩ 3 (.resetIndex false, { demoState with fileList := ["a"], sliceIdx := 1 })).2 := ⟨3, rfl⟩
  generalize hs : (steps demoWorld ⟨true, false⟩ 3 (.resetIndex false, { demoState with fileList := ["a"], sliceIdx := 1 })).2 = s1 at he
  change Serves _ _ (steps demoWorld ⟨true, false⟩ 3 (.resetIndex false, { demoState with fileList := ["a"], sliceIdx := 1 })).2 _ _ at h
  show t = (steps demoWorld ⟨true, false⟩ 3 (.resetIndex false, { demoState with fileList := ["a"], sliceIdx := 1 })).2 ∧ _
  rw [hs] at h ⊢
  clear hs
  induction h with
  | nil => exact ⟨rfl, by simp⟩
  | cons h1 _ ih =>
    obtain ⟨e1, e2⟩ := ends_unique he h1
    obtain ⟨i1, i2⟩ := ih (e2 ▸ he)
    refine ⟨i1.trans e2.symm, fun r hr => ?_⟩
    rcases List.mem_cons.1 hr with rfl | hr
    · exact e1.symm
    · exact i2 r hr

/-- `reset` repairs that (`C175_recovers`): the next call returns the first flow field. -/
example : ∃ s1 s2 s3, steps demoWorld ⟨true, false⟩ 3 (.resetIndex false, { demoState with fileList := ["a"], sliceIdx := 1 }) = (.resetFile false, s1) ∧
    steps demoWorld ⟨true, false⟩ 4 (.resetIndex false, s1) = (.wasReset, s2) ∧ Ends demoWorld ⟨true, false⟩ s2 (.ret ⟨⟨[], [0]⟩, none, none, some ["a"]⟩) s3 :=
  ⟨_, _, _, rfl, rfl, 9, rfl⟩

end Verif.Interrupt
