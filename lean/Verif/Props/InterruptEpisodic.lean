import Verif.Spec.InterruptEpisodic
import Verif.Props.Interrupt
import Verif.Props.Episodic
import Verif.Proofs.BaseMore
/-!
# C178: calls of an episodic scheduler that are interrupted
-/

namespace Verif.InterruptEpisodic
open Verif Base Interrupt

variable {V D K Key : Type}
variable {z : V} {w : World V D K} {c : Base.Cfg} {rng : Episodic.Rng Key} {cfg : Episodic.Cfg} {n : Nat}

theorem esteps_add (m k : Nat) (x : EPc V D × ERaw D K Key) : esteps z w c rng cfg n (m + k) x = esteps z w c rng cfg n k (esteps z w c rng cfg n m x) := by
  induction m generalizing x with
  | zero => rw [Nat.zero_add]; rfl
  | succ m ih => rw [Nat.succ_add]; exact ih _

theorem esteps_got (m : Nat) (r : Except Exc (Batch V)) (s : ERaw D K Key) : esteps z w c rng cfg n m (.got r, s) = (.got r, s) := by
  induction m with
  | zero => rfl
  | succ m ih => exact ih

/-- Samples have been obtained until there were enough or none were left. -/
private def Made (w : World V D K) (c : Base.Cfg) (n : Nat) (xs : List (Sample V)) (i j : Raw D K) : Prop :=
  ∃ u, Serves w c i (xs.map .ret) u ∧
    ((xs.length = n ∧ j = u) ∨ (xs.length < n ∧ (Ends w c u .stop j ∨ Ends w c u (.raise .stopIteration) j)))

/-- The wrapped `get_batch` ends. -/
private def BatchEnds (z : V) (w : World V D K) (c : Base.Cfg) (n : Nat) (i : Raw D K) (r : Except Exc (Batch V)) (j : Raw D K) : Prop :=
  (∃ (xs : List (Sample V)) (u : Raw D K) (e : Exc), Serves w c i (xs.map .ret) u ∧ xs.length < n ∧ Ends w c u (.raise e) j ∧ e ≠ .stopIteration ∧ r = .error e) ∨
  (∃ xs, xs ≠ [] ∧ Made w c n xs i j ∧ r = assemble z c xs n) ∨
  (c.loop = false ∧ Made w c n [] i j ∧ r = .error .stopIteration) ∨
  (c.loop = true ∧ (∃ u, Made w c n [] i u ∧ ∃ m, steps w c m (.resetIndex false, u) = (.wasReset, j)) ∧ r = assemble z c [] n)

private def Adv (cfg : Episodic.Cfg) (n : Nat) (s0 s : ERaw D K Key) : Prop :=
  n = cfg.batchSize ∧ s0.t < cfg.episodeLength ∧ s.t = s0.t + 1 ∧ s.key = s0.key

/-- How a call of `get_batch` ends. -/
private def Result (z : V) (w : World V D K) (c : Base.Cfg) (cfg : Episodic.Cfg) (n : Nat) (s0 : ERaw D K Key) (r : Except Exc (Batch V)) (s : ERaw D K Key) : Prop :=
  (n ≠ cfg.batchSize ∧ r = .error .valueError ∧ s = s0) ∨ (n = cfg.batchSize ∧ cfg.episodeLength ≤ s0.t ∧ r = .error .episodeEnd ∧ s = s0) ∨
  (Adv cfg n s0 s ∧ BatchEnds z w c n s0.inner r s.inner)

/-- What holds at each place of `get_batch`. -/
private def I (z : V) (w : World V D K) (c : Base.Cfg) (cfg : Episodic.Cfg) (n : Nat) (s0 : ERaw D K Key) : EPc V D → ERaw D K Key → Prop
  | .test, s => s = s0
  | .count, s => s = s0 ∧ n = cfg.batchSize ∧ s0.t < cfg.episodeLength
  | .draw xs pc, s => Adv cfg n s0 s ∧ xs.length < n ∧ ∃ u m, Serves w c s0.inner (xs.map .ret) u ∧ steps w c m (.head, u) = (pc, s.inner)
  | .made xs, s => Adv cfg n s0 s ∧ Made w c n xs s0.inner s.inner
  | .again pc, s => Adv cfg n s0 s ∧ c.loop = true ∧ ∃ u m, Made w c n [] s0.inner u ∧ steps w c m (.resetIndex false, u) = (pc, s.inner)
  | .got r, s => Result z w c cfg n s0 r s
  | _, _ => False

private theorem serves_snoc {i u v : Raw D K} {rs : List (Next V)} {r : Next V} (h : Serves w c i rs u) (h2 : Ends w c u r v) : Serves w c i (rs ++ [r]) v := by
  induction h with
  | nil => exact .cons h2 (.nil _)
  | cons h1 _ ih => exact .cons h1 (ih h2)

private theorem over_some {pc : Pc V D} {r : Next V} (h : over pc = some r) : pc = .done r := by
  cases pc <;> simp [over] at h ⊢
  exact h

private theorem steps_snoc (m : Nat) (x : Pc V D × Raw D K) : steps w c (m + 1) x = step w c (steps w c m x) := by
  rw [steps_add]
  rfl

private theorem I_step {s0 : ERaw D K Key} {pc : EPc V D} {s : ERaw D K Key} (h : I z w c cfg n s0 pc s) :
    I z w c cfg n s0 (estep z w c rng cfg n (pc, s)).1 (estep z w c rng cfg n (pc, s)).2 := by
  cases pc with
  | test =>
    have h' : s = s0 := h
    subst h'
    simp only [estep]
    split
    · exact .inl ⟨by assumption, rfl, rfl⟩
    · split
      · exact .inr (.inl ⟨by simpa using ‹¬ n ≠ cfg.batchSize›, by assumption, rfl, rfl⟩)
      · exact ⟨rfl, by simpa using ‹¬ n ≠ cfg.batchSize›, by omega⟩
  | count =>
    obtain ⟨rfl, h2, h3⟩ := h
    simp only [estep, proceed]
    split
    · exact ⟨⟨h2, h3, rfl, rfl⟩, by assumption, s.inner, 0, .nil _, rfl⟩
    · refine ⟨⟨h2, h3, rfl, rfl⟩, s.inner, .nil _, .inl ⟨?_, rfl⟩⟩
      have : ¬ ([] : List (Sample V)).length < n := by assumption
      simp only [List.length_nil] at this ⊢
      omega
  | draw xs pc =>
    obtain ⟨ha, hl, u, m, hs, hm⟩ := h
    simp only [estep]
    cases ho : over pc with
    | none =>
      refine ⟨ha, hl, u, m + 1, hs, ?_⟩
      rw [steps_snoc, hm]
    | some r =>
      have hpc := over_some ho
      subst hpc
      cases r with
      | ret x =>
        dsimp only
        have hs' : Serves w c s0.inner ((xs ++ [x]).map .ret) s.inner := by
          rw [List.map_append]
          exact serves_snoc hs ⟨m, hm⟩
        unfold proceed
        split
        · exact ⟨ha, by assumption, s.inner, 0, hs', rfl⟩
        · refine ⟨ha, s.inner, hs', .inl ⟨?_, rfl⟩⟩
          have : ¬ (xs ++ [x]).length < n := by assumption
          simp only [List.length_append, List.length_cons, List.length_nil] at this ⊢
          omega
      | stop => exact ⟨ha, u, hs, .inr ⟨hl, .inl ⟨m, hm⟩⟩⟩
      | raise e =>
        dsimp only
        split
        · subst e
          exact ⟨ha, u, hs, .inr ⟨hl, .inr ⟨m, hm⟩⟩⟩
        · exact .inr (.inr ⟨ha, .inl ⟨xs, u, e, hs, hl, ⟨m, hm⟩, by assumption, rfl⟩⟩)
  | made xs =>
    obtain ⟨ha, hm⟩ := h
    simp only [estep]
    split
    · have hx : xs = [] := List.isEmpty_iff.1 (by assumption)
      subst hx
      split
      · exact ⟨ha, by assumption, s.inner, 0, hm, rfl⟩
      · exact .inr (.inr ⟨ha, .inr (.inr (.inl ⟨by simpa using ‹¬ c.loop = true›, hm, rfl⟩))⟩)
    · exact .inr (.inr ⟨ha, .inr (.inl ⟨xs, by simpa using ‹¬ xs.isEmpty = true›, hm, rfl⟩)⟩)
  | again pc =>
    obtain ⟨ha, hl, u, m, hu, hm⟩ := h
    simp only [estep]
    split
    · have hpc : pc = .wasReset := by
        cases pc <;> simp [wasReset] at *
      subst hpc
      exact .inr (.inr ⟨ha, .inr (.inr (.inr ⟨hl, ⟨u, hu, m, hm⟩, rfl⟩))⟩)
    · exact ⟨ha, hl, u, m + 1, hu, by rw [steps_snoc, hm]⟩
  | got r => exact h
  | newKey => exact absurd h id
  | newList _ => exact absurd h id
  | newReset _ => exact absurd h id
  | zero => exact absurd h id
  | restarted _ => exact absurd h id

private theorem I_steps {s0 : ERaw D K Key} (m : Nat) {x : EPc V D × ERaw D K Key} (h : I z w c cfg n s0 x.1 x.2) :
    I z w c cfg n s0 (esteps z w c rng cfg n m x).1 (esteps z w c rng cfg n m x).2 := by
  induction m generalizing x with
  | zero => exact h
  | succ m ih => exact ih (I_step h)

/-! ## The other direction: the machine gets there -/

private def Reach (z : V) (w : World V D K) (c : Base.Cfg) (rng : Episodic.Rng Key) (cfg : Episodic.Cfg) (n : Nat) (x y : EPc V D × ERaw D K Key) : Prop :=
  ∃ m, esteps z w c rng cfg n m x = y

private theorem Reach.trans {x y v : EPc V D × ERaw D K Key} (h1 : Reach z w c rng cfg n x y) (h2 : Reach z w c rng cfg n y v) : Reach z w c rng cfg n x v := by
  obtain ⟨a, rfl⟩ := h1
  obtain ⟨b, rfl⟩ := h2
  exact ⟨a + b, esteps_add a b x⟩

private theorem Reach.one {x y : EPc V D × ERaw D K Key} (h : estep z w c rng cfg n x = y) : Reach z w c rng cfg n x y := ⟨1, h⟩

private theorem draw_reach (m : Nat) (xs : List (Sample V)) (pc : Pc V D) (s : ERaw D K Key) (r : Next V) (j : Raw D K) (h : steps w c m (pc, s.inner) = (.done r, j)) :
    Reach z w c rng cfg n (.draw xs pc, s) (.draw xs (.done r), { s with inner := j }) := by
  induction m generalizing pc s with
  | zero =>
    simp only [steps, Prod.mk.injEq] at h
    obtain ⟨rfl, rfl⟩ := h
    exact ⟨0, rfl⟩
  | succ m ih =>
    cases ho : over pc with
    | some r' =>
      have := over_some ho
      subst this
      rw [steps_done] at h
      simp only [Prod.mk.injEq] at h
      obtain ⟨h1, rfl⟩ := h
      rw [h1]
      exact ⟨0, rfl⟩
    | none =>
      refine Reach.trans (Reach.one (y := (.draw xs (step w c (pc, s.inner)).1, { s with inner := (step w c (pc, s.inner)).2 })) ?_) (ih _ _ h)
      simp only [estep, ho]

private theorem steps_wasReset (m : Nat) (i : Raw D K) : steps w c m (.wasReset, i) = ((.wasReset : Pc V D), i) := by
  induction m with
  | zero => rfl
  | succ m ih => exact ih

private theorem wasReset_true {pc : Pc V D} (h : wasReset pc = true) : pc = .wasReset := by
  cases pc <;> simp [wasReset] at h ⊢

private theorem again_reach (m : Nat) (pc : Pc V D) (s : ERaw D K Key) (j : Raw D K) (h : steps w c m (pc, s.inner) = (.wasReset, j)) :
    Reach z w c rng cfg n (.again pc, s) (.again .wasReset, { s with inner := j }) := by
  induction m generalizing pc s with
  | zero =>
    simp only [steps, Prod.mk.injEq] at h
    obtain ⟨rfl, rfl⟩ := h
    exact ⟨0, rfl⟩
  | succ m ih =>
    cases ho : wasReset pc with
    | true =>
      have := wasReset_true ho
      subst this
      rw [steps_wasReset] at h
      simp only [Prod.mk.injEq, true_and] at h
      subst h
      exact ⟨0, rfl⟩
    | false =>
      refine Reach.trans (Reach.one (y := (.again (step w c (pc, s.inner)).1, { s with inner := (step w c (pc, s.inner)).2 })) ?_) (ih _ _ h)
      simp [estep, ho]

private theorem newReset_reach (m : Nat) (pc : Pc V D) (s : ERaw D K Key) (j : Raw D K) (h : steps w c m (pc, s.inner) = (.wasReset, j)) :
    Reach z w c rng cfg n (.newReset pc, s) (.newReset .wasReset, { s with inner := j }) := by
  induction m generalizing pc s with
  | zero =>
    simp only [steps, Prod.mk.injEq] at h
    obtain ⟨rfl, rfl⟩ := h
    exact ⟨0, rfl⟩
  | succ m ih =>
    cases ho : wasReset pc with
    | true =>
      have := wasReset_true ho
      subst this
      rw [steps_wasReset] at h
      simp only [Prod.mk.injEq, true_and] at h
      subst h
      exact ⟨0, rfl⟩
    | false =>
      refine Reach.trans (Reach.one (y := (.newReset (step w c (pc, s.inner)).1, { s with inner := (step w c (pc, s.inner)).2 })) ?_) (ih _ _ h)
      simp [estep, ho]

/-- From having `ys` to having the samples `xs` more. -/
private theorem serve_reach (xs : List (Sample V)) : ∀ (ys : List (Sample V)) (s : ERaw D K Key) (u : Raw D K), Serves w c s.inner (xs.map .ret) u →
    ys.length + xs.length ≤ n → Reach z w c rng cfg n (proceed n ys, s) (proceed n (ys ++ xs), { s with inner := u }) := by
  induction xs with
  | nil =>
    intro ys s u h _
    simp only [List.map_nil] at h
    cases h
    rw [List.append_nil]
    exact ⟨0, rfl⟩
  | cons x xs ih =>
    intro ys s u h hl
    simp only [List.map_cons] at h
    simp only [List.length_cons] at hl
    cases h with
    | @cons _ _ i1 _ _ h1 h2 =>
      obtain ⟨m, hm⟩ := h1
      have e : proceed (D := D) n ys = .draw ys .head := if_pos (by omega)
      rw [e]
      refine (draw_reach m ys .head s _ _ hm).trans ((Reach.one (y := (proceed n (ys ++ [x]), { s with inner := i1 })) rfl).trans ?_)
      have := ih (ys ++ [x]) { s with inner := i1 } u h2 (by simp only [List.length_append, List.length_cons, List.length_nil]; omega)
      rw [List.append_assoc] at this
      exact this

private theorem made_reach {xs : List (Sample V)} {s : ERaw D K Key} {j : Raw D K} (h : Made w c n xs s.inner j) :
    Reach z w c rng cfg n (proceed n [], s) (.made xs, { s with inner := j }) := by
  obtain ⟨u, hu, h⟩ := h
  rcases h with ⟨hl, rfl⟩ | ⟨hl, h⟩
  · have := serve_reach (z := z) (rng := rng) (cfg := cfg) (n := n) xs [] s _ hu (by simp [hl])
    rw [List.nil_append, show proceed (D := D) n xs = .made xs from if_neg (by omega)] at this
    exact this
  · have := serve_reach (z := z) (rng := rng) (cfg := cfg) (n := n) xs [] s _ hu (by simp only [List.length_nil]; omega)
    rw [List.nil_append, show proceed (D := D) n xs = .draw xs .head from if_pos hl] at this
    refine this.trans ?_
    rcases h with ⟨m, hm⟩ | ⟨m, hm⟩
    · exact (draw_reach m xs .head { s with inner := u } _ _ hm).trans (Reach.one rfl)
    · exact (draw_reach m xs .head { s with inner := u } _ _ hm).trans (Reach.one rfl)

private theorem batch_reach {s : ERaw D K Key} {r : Except Exc (Batch V)} {j : Raw D K} (h : BatchEnds z w c n s.inner r j) :
    Reach z w c rng cfg n (proceed n [], s) (.got r, { s with inner := j }) := by
  rcases h with ⟨xs, u, e, hu, hl, ⟨m, hm⟩, he, rfl⟩ | ⟨xs, hx, hm, rfl⟩ | ⟨hc, hm, rfl⟩ | ⟨hc, ⟨u, hu, m, hm⟩, rfl⟩
  · have := serve_reach (z := z) (rng := rng) (cfg := cfg) (n := n) xs [] s _ hu (by simp only [List.length_nil]; omega)
    rw [List.nil_append, show proceed (D := D) n xs = .draw xs .head from if_pos hl] at this
    refine this.trans ((draw_reach m xs .head { s with inner := u } _ _ hm).trans (Reach.one ?_))
    simp only [estep, over, if_neg he]
  · refine (made_reach hm).trans (Reach.one ?_)
    have : xs.isEmpty = false := by cases xs <;> simp_all
    simp [estep, this]
  · refine (made_reach hm).trans (Reach.one ?_)
    simp [estep, hc]
  · refine (made_reach hu).trans ((Reach.one (y := (.again (.resetIndex false), { s with inner := u })) ?_).trans
      ((again_reach m (.resetIndex false) { s with inner := u } j hm).trans (Reach.one ?_)))
    · simp [estep, hc]
    · simp [estep, wasReset]

private theorem gets_iff (s : ERaw D K Key) (r : Except Exc (Batch V)) (s' : ERaw D K Key) : Gets z w c rng cfg n s r s' ↔ Result z w c cfg n s r s' := by
  constructor
  · rintro ⟨m, h⟩
    have := I_steps (z := z) (w := w) (c := c) (rng := rng) (cfg := cfg) (n := n) (s0 := s) m (x := (.test, s)) rfl
    rw [h] at this
    exact this
  · rintro (⟨h1, rfl, rfl⟩ | ⟨h1, h2, rfl, rfl⟩ | ⟨⟨h1, h2, h3, h4⟩, hb⟩)
    · exact ⟨1, by simp only [esteps, estep, if_pos h1]⟩
    · exact ⟨1, by simp only [esteps, estep, h1, ne_eq, not_true_eq_false, if_false, if_pos h2]⟩
    · have e1 : estep z w c rng cfg n (.test, s) = (.count, s) := by
        simp only [estep, h1, ne_eq, not_true_eq_false, if_false, if_neg (Nat.not_le.2 h2)]
      refine (Reach.one e1).trans ((Reach.one (y := (proceed n [], { s with t := s.t + 1 })) rfl).trans ?_)
      have := batch_reach (rng := rng) (cfg := cfg) (s := { s with t := s.t + 1 }) hb
      cases s'
      simp only at h3 h4
      subst h3 h4
      exact this

/-! ## The machine and the model without interruptions -/

private theorem serves_collect {rs : List (Next V)} {i u : Raw D K} (h : Serves w c i rs u) : ∀ (b : Base.St D K) (xs : List (Sample V)), i = Raw.of b →
    rs = xs.map .ret → ∃ fuel b', u = Raw.of b' ∧ ∀ f, fuel ≤ f → ∀ k, collect w c f (xs.length + k) b =
      match collect w c f k b' with
      | none => none
      | some (.ok ys, s) => some (.ok (xs ++ ys), s)
      | some (.error e, s) => some (.error e, s) := by
  induction h with
  | nil s =>
    intro b xs hb hx
    cases xs with
    | cons x xs => simp at hx
    | nil =>
      refine ⟨0, b, hb, fun f _ k => ?_⟩
      rw [List.length_nil, Nat.zero_add]
      cases collect w c f k b with
      | none => rfl
      | some q =>
        obtain ⟨r, s'⟩ := q
        cases r <;> rfl
  | @cons s r s1 rs s2 h1 _ ih =>
    intro b xs hb hx
    cases xs with
    | nil => simp at hx
    | cons x xs =>
      simp only [List.map_cons, List.cons.injEq] at hx
      obtain ⟨rfl, rfl⟩ := hx
      subst hb
      obtain ⟨f1, b1, hg, rfl⟩ := (C175_agrees w c b _ _).1 h1
      obtain ⟨f2, b2, rfl, hc⟩ := ih b1 xs rfl rfl
      refine ⟨max f1 f2, b2, rfl, fun f hf k => ?_⟩
      rw [List.length_cons, Nat.add_right_comm, collect, getNext_mono f1 b hg f (by omega)]
      dsimp only
      rw [hc f (by omega) k]
      cases collect w c f k b2 with
      | none => rfl
      | some q =>
        obtain ⟨r, s'⟩ := q
        cases r <;> rfl

private theorem made_collect {xs : List (Sample V)} {b : Base.St D K} {j : Raw D K} (h : Made w c n xs (Raw.of b) j) :
    ∃ fuel b', j = Raw.of b' ∧ collect w c fuel n b = some (.ok xs, b') := by
  obtain ⟨u, hu, h⟩ := h
  obtain ⟨f1, b1, rfl, hc⟩ := serves_collect hu b xs rfl rfl
  rcases h with ⟨rfl, rfl⟩ | ⟨hl, h⟩
  · refine ⟨f1, b1, rfl, ?_⟩
    have := hc f1 (Nat.le_refl _) 0
    simpa [collect] using this
  · obtain ⟨k, rfl⟩ : ∃ k, n = xs.length + (k + 1) := ⟨n - xs.length - 1, by omega⟩
    rcases h with h | h
    · obtain ⟨f2, b2, hg, rfl⟩ := (C175_agrees w c b1 _ _).1 h
      refine ⟨max f1 f2, b2, rfl, ?_⟩
      rw [hc _ (by omega), collect, getNext_mono f2 b1 hg _ (by omega)]
      simp
    · obtain ⟨f2, b2, hg, rfl⟩ := (C175_agrees w c b1 _ _).1 h
      refine ⟨max f1 f2, b2, rfl, ?_⟩
      rw [hc _ (by omega), collect, getNext_mono f2 b1 hg _ (by omega)]
      simp

private theorem collect_made (fuel : Nat) : ∀ (n : Nat) (b b' : Base.St D K) (q : Except Exc (List (Sample V))), collect w c fuel n b = some (q, b') →
    match q with
    | .ok xs => Made w c n xs (Raw.of b) (Raw.of b')
    | .error e => ∃ (xs : List (Sample V)) (u : Raw D K), Serves w c (Raw.of b) (xs.map .ret) u ∧ xs.length < n ∧ Ends w c u (.raise e) (Raw.of b') ∧ e ≠ .stopIteration := by
  intro n
  induction n with
  | zero =>
    intro b b' q h
    simp only [collect, Option.some.injEq, Prod.mk.injEq] at h
    obtain ⟨rfl, rfl⟩ := h
    exact ⟨_, .nil _, .inl ⟨rfl, rfl⟩⟩
  | succ n ih =>
    intro b b' q h
    rw [collect] at h
    cases hg : getNext w c fuel b with
    | none => rw [hg] at h; simp at h
    | some p =>
      obtain ⟨r, b1⟩ := p
      have he : Ends w c (Raw.of b) r (Raw.of b1) := (C175_agrees w c b r _).2 ⟨fuel, b1, hg, rfl⟩
      rw [hg] at h
      cases r with
      | stop =>
        simp only [Option.some.injEq, Prod.mk.injEq] at h
        obtain ⟨rfl, rfl⟩ := h
        exact ⟨_, .nil _, .inr ⟨by simp, .inl he⟩⟩
      | raise e =>
        dsimp only at h
        split at h
        · subst e
          simp only [Option.some.injEq, Prod.mk.injEq] at h
          obtain ⟨rfl, rfl⟩ := h
          exact ⟨_, .nil _, .inr ⟨by simp, .inr he⟩⟩
        · simp only [Option.some.injEq, Prod.mk.injEq] at h
          obtain ⟨rfl, rfl⟩ := h
          exact ⟨[], _, .nil _, by simp, he, by assumption⟩
      | ret x =>
        dsimp only at h
        cases hc : collect w c fuel n b1 with
        | none => rw [hc] at h; simp at h
        | some p =>
          obtain ⟨q1, b2⟩ := p
          have := ih b1 b2 q1 hc
          rw [hc] at h
          cases q1 with
          | ok xs =>
            simp only [Option.some.injEq, Prod.mk.injEq] at h
            obtain ⟨rfl, rfl⟩ := h
            obtain ⟨u, hu, hr⟩ := this
            refine ⟨u, .cons he hu, ?_⟩
            rcases hr with ⟨h1, h2⟩ | ⟨h1, h2⟩
            · exact .inl ⟨by simp [h1], h2⟩
            · exact .inr ⟨by simp only [List.length_cons]; omega, h2⟩
          | error e =>
            simp only [Option.some.injEq, Prod.mk.injEq] at h
            obtain ⟨rfl, rfl⟩ := h
            obtain ⟨xs, u, hu, hl, hr⟩ := this
            exact ⟨x :: xs, u, .cons he hu, by simp only [List.length_cons]; omega, hr⟩

private theorem steps_reset_unique {i j : Raw D K} {m : Nat} (h : steps w c m (.resetIndex false, i) = ((.wasReset : Pc V D), j)) :
    j = Raw.of (Base.reset w c { fileList := i.fileList, index := i.index, cached := none, sliceIdx := i.sliceIdx, key := i.key }) := by
  obtain ⟨k, hk⟩ := reset_steps w c false i
  have e1 : steps w c (m + k) (.resetIndex false, i) = ((.wasReset : Pc V D), j) := by rw [steps_add, h, steps_wasReset]
  have e2 : steps w c (m + k) (.resetIndex false, i) =
      ((.wasReset : Pc V D), Raw.of (Base.reset w c { fileList := i.fileList, index := i.index, cached := none, sliceIdx := i.sliceIdx, key := i.key })) := by
    rw [Nat.add_comm, steps_add, hk]
    exact steps_wasReset _ _
  rw [e1] at e2
  injection e2

private theorem batchEnds_iff (b : Base.St D K) (r : Except Exc (Batch V)) (j : Raw D K) :
    BatchEnds z w c n (Raw.of b) r j ↔ ∃ fuel b', Base.getBatch z w c fuel n b = some (r, b') ∧ j = Raw.of b' := by
  constructor
  · rintro (⟨xs, u, e, hu, hl, he, hne, rfl⟩ | ⟨xs, hx, hm, rfl⟩ | ⟨hc, hm, rfl⟩ | ⟨hc, ⟨u, hu, m, hm⟩, rfl⟩)
    · obtain ⟨f1, b1, rfl, hc⟩ := serves_collect hu b xs rfl rfl
      obtain ⟨k, rfl⟩ : ∃ k, n = xs.length + (k + 1) := ⟨n - xs.length - 1, by omega⟩
      obtain ⟨f2, b2, hg, rfl⟩ := (C175_agrees w c b1 _ _).1 he
      refine ⟨max f1 f2, b2, ?_, rfl⟩
      rw [Base.getBatch, hc _ (by omega), collect, getNext_mono f2 b1 hg _ (by omega)]
      simp [hne]
    · obtain ⟨f, b', rfl, hc⟩ := made_collect hm
      refine ⟨f, b', ?_, rfl⟩
      have : xs.isEmpty = false := by cases xs <;> simp_all
      simp [Base.getBatch, hc, this]
    · obtain ⟨f, b', rfl, hc'⟩ := made_collect hm
      exact ⟨f, b', by simp [Base.getBatch, hc', hc], rfl⟩
    · obtain ⟨f, b', rfl, hc'⟩ := made_collect hu
      refine ⟨f, Base.reset w c b', by simp [Base.getBatch, hc', hc], ?_⟩
      rw [steps_reset_unique hm]
      rfl
  · rintro ⟨fuel, b', h, rfl⟩
    rw [Base.getBatch] at h
    cases hc : collect w c fuel n b with
    | none => rw [hc] at h; simp at h
    | some p =>
      obtain ⟨q, b1⟩ := p
      have hm := collect_made fuel n b b1 q hc
      rw [hc] at h
      cases q with
      | error e =>
        simp only [Option.some.injEq, Prod.mk.injEq] at h
        obtain ⟨rfl, rfl⟩ := h
        obtain ⟨xs, u, h1, h2, h3, h4⟩ := hm
        exact .inl ⟨xs, u, e, h1, h2, h3, h4, rfl⟩
      | ok xs =>
        dsimp only at h
        split at h
        · have hx : xs = [] := List.isEmpty_iff.1 (by assumption)
          subst hx
          split at h
          · simp only [Option.some.injEq, Prod.mk.injEq] at h
            obtain ⟨rfl, rfl⟩ := h
            obtain ⟨k, hk⟩ := reset_steps w c false (Raw.of b1)
            exact .inr (.inr (.inr ⟨by assumption, ⟨_, hm, k, hk⟩, rfl⟩))
          · simp only [Option.some.injEq, Prod.mk.injEq] at h
            obtain ⟨rfl, rfl⟩ := h
            exact .inr (.inr (.inl ⟨by simpa using ‹¬ c.loop = true›, hm, rfl⟩))
        · simp only [Option.some.injEq, Prod.mk.injEq] at h
          obtain ⟨rfl, rfl⟩ := h
          exact .inr (.inl ⟨xs, by simpa using ‹¬ xs.isEmpty = true›, hm, rfl⟩)

/-- **C178** (the machine is the code). Executed assignment by assignment, a `get_batch` that is not interrupted ends exactly as in the model without
interruptions. -/
theorem C178_agrees (z : V) (w : World V D K) (c : Base.Cfg) (rng : Episodic.Rng Key) (cfg : Episodic.Cfg) (n : Nat) (e : Episodic.St (Base.St D K) Key)
    (r : Except Exc (Batch V)) (s' : ERaw D K Key) :
    Gets z w c rng cfg n (ERaw.of e) r s' ↔ ∃ fuel e', Episodic.getBatch (Base.sched z w c fuel) cfg n e = some (r, e') ∧ s' = ERaw.of e' := by
  rw [gets_iff]
  constructor
  · rintro (⟨h1, rfl, rfl⟩ | ⟨h1, h2, rfl, rfl⟩ | ⟨⟨h1, h2, h3, h4⟩, hb⟩)
    · exact ⟨0, e, if_pos h1, rfl⟩
    · refine ⟨0, e, ?_, rfl⟩
      have h2' : cfg.episodeLength ≤ e.t := h2
      simp [Episodic.getBatch, h1, h2']
    · obtain ⟨fuel, b', hg, hj⟩ := (batchEnds_iff (z := z) (n := n) e.inner r _).1 hb
      refine ⟨fuel, { e with t := e.t + 1, inner := b' }, ?_, ?_⟩
      · have h2' : ¬ cfg.episodeLength ≤ e.t := Nat.not_le.2 h2
        have hg' : (Base.sched z w c fuel).getBatch n e.inner = some (r, b') := hg
        rw [Episodic.getBatch, if_neg (by simp [h1]), if_neg h2', hg']
      · cases s'
        simp only at h3 h4 hj
        subst h3 h4 hj
        rfl
  · rintro ⟨fuel, e', h, rfl⟩
    rw [Episodic.getBatch] at h
    split at h
    · simp only [Option.some.injEq, Prod.mk.injEq] at h
      obtain ⟨rfl, rfl⟩ := h
      exact .inl ⟨by assumption, rfl, rfl⟩
    · have hn : n = cfg.batchSize := by simpa using ‹¬ n ≠ cfg.batchSize›
      split at h
      · simp only [Option.some.injEq, Prod.mk.injEq] at h
        obtain ⟨rfl, rfl⟩ := h
        exact .inr (.inl ⟨hn, by assumption, rfl, rfl⟩)
      · cases hg : (Base.sched z w c fuel).getBatch n e.inner with
        | none => rw [hg] at h; simp at h
        | some p =>
          obtain ⟨r', b'⟩ := p
          rw [hg] at h
          simp only [Option.some.injEq, Prod.mk.injEq] at h
          obtain ⟨rfl, rfl⟩ := h
          exact .inr (.inr ⟨⟨hn, Nat.not_le.1 (by assumption), rfl, rfl⟩, (batchEnds_iff (z := z) (n := n) e.inner r' _).2 ⟨fuel, b', hg, rfl⟩⟩)

/-! ## Recovery -/

private theorem esteps_restarted (m : Nat) (b : Bool) (s : ERaw D K Key) : esteps z w c rng cfg n m (.restarted b, s) = (.restarted b, s) := by
  induction m with
  | zero => rfl
  | succ m ih => exact ih

/-- An uninterrupted `next_episode` in any state whatever. -/
private theorem restart_reach (hs : cfg.starts ≠ []) (fuel : Nat) (s : ERaw D K Key) :
    ∃ e, Episodic.nextEpisode (Base.sched z w c fuel) rng cfg
        { inner := { fileList := s.inner.fileList, index := s.inner.index, cached := none, sliceIdx := s.inner.sliceIdx, key := s.inner.key }, t := s.t, key := s.key } = .ok e ∧
      Restarts z w c rng cfg s (ERaw.of e) := by
  have hs' : cfg.starts.isEmpty = false := by simpa using hs
  generalize ho : Episodic.interleave cfg.episodeLength cfg.batchSize
        (((rng.choice (rng.split s.key).2 cfg.starts.length cfg.batchSize).map (fun i => cfg.starts.getD i ("", 0))).map (Episodic.window cfg)) = order
  have e1 : estep z w c rng cfg cfg.batchSize (.newKey, s) = (.newList order, { s with key := (rng.split s.key).1 }) := by
    simp only [estep, hs', ho]
    rfl
  obtain ⟨k, hk⟩ := reset_steps w c false { s.inner with fileList := order }
  refine ⟨{ inner := Base.reset w c { fileList := order, index := s.inner.index, cached := none, sliceIdx := s.inner.sliceIdx, key := s.inner.key }, t := 0,
            key := (rng.split s.key).1 }, ?_, ?_⟩
  · simp only [Episodic.nextEpisode, Episodic.sample, hs', ho]
    rfl
  · exact (Reach.one e1).trans ((Reach.one rfl).trans ((newReset_reach k _ { s with key := (rng.split s.key).1, inner := { s.inner with fileList := order } } _ hk).trans
      ((Reach.one rfl).trans (Reach.one rfl))))

/-- **C178** (the machine is the code, `next_episode`). -/
theorem C178_restart_agrees (z : V) (w : World V D K) (c : Base.Cfg) (rng : Episodic.Rng Key) (cfg : Episodic.Cfg) (hs : cfg.starts ≠ []) (fuel : Nat)
    (e : Episodic.St (Base.St D K) Key) (s' : ERaw D K Key) :
    Restarts z w c rng cfg (ERaw.of e) s' ↔ ∃ e', Episodic.nextEpisode (Base.sched z w c fuel) rng cfg e = .ok e' ∧ s' = ERaw.of e' := by
  have hs' : cfg.starts.isEmpty = false := by simpa using hs
  obtain ⟨e1, h1, m1, h2⟩ := restart_reach (z := z) (w := w) (c := c) (rng := rng) hs fuel (ERaw.of e)
  have h3 : Episodic.nextEpisode (Base.sched z w c fuel) rng cfg e = .ok e1 := by
    rw [← h1]
    simp only [Episodic.nextEpisode, Episodic.sample, hs']
    rfl
  rw [h3]
  constructor
  · rintro ⟨m, hm⟩
    refine ⟨e1, rfl, ?_⟩
    have a : esteps z w c rng cfg cfg.batchSize (m + m1) (.newKey, ERaw.of e) = (.restarted true, s') := by rw [esteps_add, hm, esteps_restarted]
    have b : esteps z w c rng cfg cfg.batchSize (m + m1) (.newKey, ERaw.of e) = (.restarted true, ERaw.of e1) := by
      rw [Nat.add_comm, esteps_add, h2, esteps_restarted]
    rw [a] at b
    injection b
  · rintro ⟨e', he, rfl⟩
    injection he with he
    subst he
    exact ⟨m1, h2⟩

/-- **C178** (recovery). In whatever state `s1` interruptions have left the attributes, any number of them, in any call and at any place (torn places included): a
`next_episode` that is not interrupted ends, and the next `episode_length` calls deliver `batch_size` new episodes as if nothing had happened: the `t`-th shows in row `i` the `t`-th frame
of the `i`-th episode. The conditions on the files are those of C22. -/
theorem C178_recovers (zero : V) (w : World V D K) (bcfg : Base.Cfg) (hrand : bcfg.randomize = false) (fuel : Nat) (rng : Episodic.Rng Key)
    (hc : Episodic.ChoiceOK rng) (os : LeafDirs.OS) (glob : String → List String) (bs el : Option Int) (inner : Base.St D K) (key : Key) (cfg : Episodic.Cfg)
    (e0 : Episodic.St (Base.St D K) Key) (h : Episodic.init (Base.sched zero w bcfg fuel) rng os glob bs el inner key = .ok (cfg, e0))
    (dirs : List String) (hd : LeafDirs.discover os false inner.fileList = .ok dirs)
    (frame : String → Base.Sample V) (hy : ∀ d ∈ dirs, ∀ p ∈ glob d, Base.Yields w p [frame p])
    {fsh o1 o2 named} (hu : Base.Uniform ((dirs.flatMap glob).map frame) fsh o1 o2 named) (hf : cfg.episodeLength * cfg.batchSize ≤ fuel)
    (s1 : ERaw D K Key) :
    ∃ e, Restarts zero w bcfg rng cfg s1 (ERaw.of e) ∧ e.t = 0 ∧ (List.IsChain (· ≠ ·) e.inner.fileList →
      ∃ eps : List (List String), eps.length = cfg.batchSize ∧
        (∀ ep ∈ eps, Episodic.IsEpisode glob dirs cfg.episodeLength ep) ∧ Episodic.SideBySide cfg.episodeLength eps e.inner.fileList ∧
        ∃ outs e', Episodic.run (Base.sched zero w bcfg fuel) rng cfg
            (List.replicate cfg.episodeLength (.getBatch cfg.batchSize)) e = some (outs, e') ∧
          ∀ t, t < cfg.episodeLength → ∃ b, outs[t]? = some (.batch b) ∧
            Base.Shows zero (eps.map (fun ep => frame (ep.getD t ""))) cfg.batchSize b) := by
  have hs : cfg.starts ≠ [] := by
    intro hs
    have h0 := h
    unfold Episodic.init at h0
    repeat' split at h0
    all_goals first | (exfalso; simp at h0; done) | skip
    dsimp only at h0
    split at h0
    · simp at h0
    · rename_i hsm
      simp only [Except.ok.injEq, Prod.mk.injEq] at h0
      obtain ⟨rfl, rfl⟩ := h0
      simp only at hs
      simp [Episodic.sample, hs] at hsm
  obtain ⟨e, h1, h2⟩ := restart_reach (z := zero) (w := w) (c := bcfg) (rng := rng) hs fuel s1
  refine ⟨e, h2, ?_, fun hchain => Episodic.C22_rows_aligned_partial zero w bcfg hrand fuel rng hc os glob bs el inner key cfg e0 h dirs hd frame hy hu e
    (.inr ⟨_, h1⟩) hf hchain⟩
  unfold Episodic.nextEpisode at h1
  split at h1
  · simp at h1
  · injection h1 with h1
    rw [← h1]

/-! ## What an interrupted call leaves behind -/

/-- **C178** (exactly what is lost). A call of `get_batch` is interrupted after it has obtained the samples `xs`, at a place that is not torn. Then the next sample
that the wrapped scheduler delivers is the one that follows `xs`: the samples `xs` are lost. The step has been counted, the key has not been touched. -/
theorem C178_continues (z : V) (w : World V D K) (c : Base.Cfg) (hp : c.randomize = true → PermOK w) (rng : Episodic.Rng Key) (cfg : Episodic.Cfg) (n m : Nat)
    (s s' : ERaw D K Key) (hs : s.inner.fileList ≠ []) (xs : List (Sample V)) (pc : Pc V D) (h : esteps z w c rng cfg n m (.test, s) = (.draw xs pc, s'))
    (ht : ¬ Torn pc) (hd : ∀ r, pc ≠ .done r) :
    xs.length < n ∧ s'.t = s.t + 1 ∧ s'.key = s.key ∧
      ∃ u, Serves w c s.inner (xs.map .ret) u ∧ ∀ r s'', Ends w c s'.inner r s'' ↔ Ends w c u r s'' := by
  have hI := I_steps (z := z) (w := w) (c := c) (rng := rng) (cfg := cfg) (n := n) (s0 := s) m (x := (.test, s)) rfl
  rw [h] at hI
  obtain ⟨⟨_, _, h3, h4⟩, hl, u, k, hu, hk⟩ := hI
  refine ⟨hl, h3, h4, u, hu, ?_⟩
  rcases C175_resumes_partial w c hp u (serves_nonempty hp hs hu) k pc s'.inner hk ht with he | ⟨r, rfl, _⟩
  · exact he
  · exact absurd rfl (hd r)

/-- Two states of the wrapped scheduler from which the same follows. -/
private def Same (w : World V D K) (c : Base.Cfg) (i j : Raw D K) : Prop := ∀ r s'', Ends w c i r s'' ↔ Ends w c j r s''

private theorem serves_same {i j u : Raw D K} (h : Same w c i j) (hu : Same w c u u) {rs : List (Next V)} (hrs : rs ≠ []) (hs : Serves w c i rs u) : Serves w c j rs u := by
  cases hs with
  | nil => exact absurd rfl hrs
  | cons h1 h2 => exact .cons ((h _ _).1 h1) h2

private theorem made_same {i j v : Raw D K} (h : Same w c i j) (hn : 0 < n) {xs : List (Sample V)} (hm : Made w c n xs i v) : Made w c n xs j v := by
  obtain ⟨u, hu, hr⟩ := hm
  cases xs with
  | nil =>
    cases hu
    rcases hr with ⟨h1, _⟩ | ⟨h1, h2⟩
    · simp only [List.length_nil] at h1
      omega
    · exact ⟨j, .nil _, .inr ⟨h1, h2.imp (h _ _).1 (h _ _).1⟩⟩
  | cons x xs => exact ⟨u, serves_same h (fun _ _ => Iff.rfl) (by simp) hu, hr⟩

private theorem batch_same {i j v : Raw D K} (h : Same w c i j) (hn : 0 < n) {r : Except Exc (Batch V)} (hb : BatchEnds z w c n i r v) : BatchEnds z w c n j r v := by
  rcases hb with ⟨xs, u, e, hu, hl, he, hne, rfl⟩ | ⟨xs, hx, hm, rfl⟩ | ⟨hc, hm, rfl⟩ | ⟨hc, ⟨u, hu, hm⟩, rfl⟩
  · cases xs with
    | nil =>
      cases hu
      exact .inl ⟨[], j, e, .nil _, hl, (h _ _).1 he, hne, rfl⟩
    | cons x xs => exact .inl ⟨x :: xs, u, e, serves_same h (fun _ _ => Iff.rfl) (by simp) hu, hl, he, hne, rfl⟩
  · exact .inr (.inl ⟨xs, hx, made_same h hn hm, rfl⟩)
  · exact .inr (.inr (.inl ⟨hc, made_same h hn hm, rfl⟩))
  · exact .inr (.inr (.inr ⟨hc, ⟨u, made_same h hn hu, hm⟩, rfl⟩))

private theorem quiet_same (hp : c.randomize = true → PermOK w) {s s' : ERaw D K Key} (hs : s.inner.fileList ≠ []) {m : Nat} {pc : EPc V D}
    (h : esteps z w c rng cfg n m (.test, s) = (pc, s')) (hq : Quiet pc) :
    s'.inner.fileList ≠ [] ∧ s.t ≤ s'.t ∧ s'.t ≤ s.t + 1 ∧ s'.key = s.key ∧ Same w c s'.inner s.inner := by
  have hI := I_steps (z := z) (w := w) (c := c) (rng := rng) (cfg := cfg) (n := n) (s0 := s) m (x := (.test, s)) rfl
  rw [h] at hI
  cases pc with
  | test =>
    have : s' = s := hI
    subst this
    exact ⟨hs, by omega, by omega, rfl, fun _ _ => Iff.rfl⟩
  | count =>
    have : s' = s := hI.1
    subst this
    exact ⟨hs, by omega, by omega, rfl, fun _ _ => Iff.rfl⟩
  | draw xs pc =>
    obtain ⟨rfl, ht, hd⟩ := hq
    obtain ⟨_, h3, h4, u, hu, he⟩ := C178_continues z w c hp rng cfg n m s s' hs [] pc h ht hd
    cases hu
    obtain ⟨_, _, u', k, hu', hk⟩ := hI
    cases hu'
    exact ⟨steps_nonempty hp hs hk ht, by omega, by omega, h4, he⟩
  | made _ => exact absurd hq id
  | again _ => exact absurd hq id
  | got _ => exact absurd hq id
  | newKey => exact absurd hq id
  | newList _ => exact absurd hq id
  | newReset _ => exact absurd hq id
  | zero => exact absurd hq id
  | restarted _ => exact absurd hq id

private theorem ends_nonempty (hp : c.randomize = true → PermOK w) {i j : Raw D K} (hi : i.fileList ≠ []) {r : Next V} (h : Ends w c i r j) : j.fileList ≠ [] := by
  obtain ⟨m, h⟩ := h
  exact steps_nonempty hp hi h id

private theorem made_nonempty (hp : c.randomize = true → PermOK w) {i j : Raw D K} (hi : i.fileList ≠ []) {xs : List (Sample V)} (h : Made w c n xs i j) :
    j.fileList ≠ [] := by
  obtain ⟨u, hu, h⟩ := h
  have h1 := serves_nonempty hp hi hu
  rcases h with ⟨_, rfl⟩ | ⟨_, h | h⟩
  · exact h1
  · exact ends_nonempty hp h1 h
  · exact ends_nonempty hp h1 h

private theorem batch_nonempty (hp : c.randomize = true → PermOK w) {i j : Raw D K} (hi : i.fileList ≠ []) {r : Except Exc (Batch V)} (h : BatchEnds z w c n i r j) :
    j.fileList ≠ [] := by
  rcases h with ⟨xs, u, e, hu, hl, he, hne, rfl⟩ | ⟨xs, hx, hm, rfl⟩ | ⟨hc, hm, rfl⟩ | ⟨hc, ⟨u, hu, m, hm⟩, rfl⟩
  · exact ends_nonempty hp (serves_nonempty hp hi hu) he
  · exact made_nonempty hp hi hm
  · exact made_nonempty hp hi hm
  · rw [steps_reset_unique hm]
    have h1 := made_nonempty hp hi hu
    intro h2
    apply h1
    have := (shuffle_perm (w := w) (cfg := c) hp u.fileList u.key).length_eq
    have h3 : (shuffle w c u.fileList u.key).1 = [] := h2
    rw [h3] at this
    exact List.length_eq_zero_iff.1 this.symm

/-- **C178** (partial). Calls of `get_batch` in an episode, some of them interrupted before they had obtained a sample, at places that are not torn. Then the others
return exactly what the same number of calls without interruptions return, in the same order: no time step is left out and every row stays with its episode.
Only the step counter has run ahead, by at most one per interruption, so that `EpisodeEnd` comes that much too early. Missing: interruptions after a sample has been obtained
(`C178_continues`, `C178_refuted_rows`), at torn places, and in `next_episode` (`C178_refuted_list`, `C178_refuted_step`). -/
theorem C178_history_partial (z : V) (w : World V D K) (c : Base.Cfg) (hp : c.randomize = true → PermOK w) (rng : Episodic.Rng Key) (cfg : Episodic.Cfg)
    (hn : 0 < cfg.batchSize) (s : ERaw D K Key) (hs : s.inner.fileList ≠ []) (rs : List (Except Exc (Batch V))) (k : Nat) (s' : ERaw D K Key)
    (h : EHistory z w c rng cfg s rs k s') :
    ∃ t, EServes z w c rng cfg s rs t ∧ t.t = s.t + rs.length ∧ t.t ≤ s'.t ∧ s'.t ≤ t.t + k ∧ s'.key = s.key ∧
      ∀ r i, Ends w c s'.inner r i ↔ Ends w c t.inner r i := by
  suffices H : ∀ s0 : ERaw D K Key, s0.t ≤ s.t → s0.key = s.key → Same w c s.inner s0.inner → s0.inner.fileList ≠ [] →
      ∃ t, EServes z w c rng cfg s0 rs t ∧ t.t = s0.t + rs.length ∧ t.t ≤ s'.t ∧ s'.t ≤ t.t + (s.t - s0.t) + k ∧ s'.key = s.key ∧ Same w c s'.inner t.inner by
    obtain ⟨t, h1, h2, h3, h4, h5, h6⟩ := H s (Nat.le_refl _) rfl (fun _ _ => Iff.rfl) hs
    exact ⟨t, h1, h2, h3, by omega, h5, h6⟩
  induction h with
  | nil s =>
    intro s0 h1 h2 h3 _
    exact ⟨s0, .nil _, rfl, h1, by omega, rfl, h3⟩
  | @call s r s1 rs k s2 hlt hg _ ih =>
    intro s0 h1 h2 h3 h0
    rcases (gets_iff s r s1).1 hg with ⟨hne, _⟩ | ⟨_, hle, _⟩ | ⟨⟨_, _, ht, hk⟩, hb⟩
    · exact absurd rfl hne
    · omega
    · have hb0 := batch_same h3 hn hb
      have hg0 : Gets z w c rng cfg cfg.batchSize s0 r { s1 with t := s0.t + 1 } :=
        (gets_iff _ _ _).2 (.inr (.inr ⟨⟨rfl, by omega, rfl, hk.trans h2.symm⟩, hb0⟩))
      have hn1 := batch_nonempty hp hs hb
      obtain ⟨t, a1, a2, a3, a4, a5, a6⟩ := ih hn1 { s1 with t := s0.t + 1 } (by simp only; omega) rfl (fun _ _ => Iff.rfl) hn1
      refine ⟨t, .cons (by omega) hg0 a1, ?_, a3, ?_, a5.trans hk, a6⟩
      · simp only [List.length_cons] at a2 ⊢
        omega
      · simp only at a4
        omega
  | @interrupted s pc s1 rs k s2 m hlt hm hq _ ih =>
    intro s0 h1 h2 h3 h0
    obtain ⟨b1, b2, b3, b4, b5⟩ := quiet_same hp hs hm hq
    obtain ⟨t, a1, a2, a3, a4, a5, a6⟩ := ih b1 s0 (by omega) (h2.trans b4.symm) (fun r i => (b5 r i).trans (h3 r i)) h0
    exact ⟨t, a1, a2, a3, by omega, a5.trans b4, a6⟩

/-! ## Keys -/

/-- **C178** (keys). `get_batch` does not touch the key, however it ends; a `next_episode` has used up exactly one key from its first assignment on. So a `next_episode` that is
called again after an interruption draws the episodes that the one after it would have drawn. -/
theorem C178_keys (z : V) (w : World V D K) (c : Base.Cfg) (rng : Episodic.Rng Key) (cfg : Episodic.Cfg) (n m : Nat) (s : ERaw D K Key) :
    (esteps z w c rng cfg n m (.test, s)).2.key = s.key ∧
    (esteps z w c rng cfg n m (.newKey, s)).2.key = if m = 0 then s.key else (rng.split s.key).1 := by
  have keep : ∀ (pc : EPc V D) (s : ERaw D K Key), (∀ h : pc = .newKey, False) → (estep z w c rng cfg n (pc, s)).2.key = s.key ∧ ((estep z w c rng cfg n (pc, s)).1 = .newKey → False) := by
    intro pc s h
    cases pc with
    | newKey => exact absurd rfl h
    | test => simp only [estep]; split <;> [exact ⟨rfl, by simp⟩; (split <;> exact ⟨rfl, by simp⟩)]
    | count => simp only [estep, proceed]; exact ⟨trivial, by split <;> simp⟩
    | draw xs pc =>
      simp only [estep, proceed]
      split
      · exact ⟨rfl, by simp⟩
      · exact ⟨rfl, by simp only; split <;> simp⟩
      · exact ⟨rfl, by simp⟩
      · exact ⟨rfl, by simp only; split <;> simp⟩
    | made xs =>
      simp only [estep]
      split
      · split <;> exact ⟨rfl, by simp⟩
      · exact ⟨rfl, by simp⟩
    | again pc => simp only [estep]; split <;> exact ⟨rfl, by simp⟩
    | got r => exact ⟨rfl, by simp [estep]⟩
    | newList o => exact ⟨rfl, by simp [estep]⟩
    | newReset pc => simp only [estep]; split <;> exact ⟨rfl, by simp⟩
    | zero => exact ⟨rfl, by simp [estep]⟩
    | restarted b => exact ⟨rfl, by simp [estep]⟩
  have keeps : ∀ (m : Nat) (pc : EPc V D) (s : ERaw D K Key), (∀ h : pc = .newKey, False) → (esteps z w c rng cfg n m (pc, s)).2.key = s.key := by
    intro m
    induction m with
    | zero => intro pc s _; rfl
    | succ m ih =>
      intro pc s h
      rw [esteps, ih _ _ (keep pc s h).2, (keep pc s h).1]
  refine ⟨keeps m .test s (by simp), ?_⟩
  cases m with
  | zero => rfl
  | succ m =>
    rw [if_neg (by omega), esteps]
    have : ((estep z w c rng cfg n (.newKey, s)).1 = .newKey → False) := by
      simp only [estep]
      split <;> simp
    rw [keeps m _ _ this]
    rfl

/-! ## Where interruptions do harm -/

/-- Two episodes of two steps, (d0, d1) and (e1, e2), as in the examples of C22. -/
def demoCfg : Episodic.Cfg :=
  { batchSize := 2, episodeLength := 2, dir2files := [("d", ["d0", "d1", "d2"]), ("e", ["e0", "e1", "e2"])], starts := [("d", 0), ("d", 1), ("e", 0), ("e", 1)] }

/-- The state after the constructor, with the key `k`. -/
def demoStart (k : KeyTerm) : ERaw Unit KeyTerm KeyTerm :=
  { inner := { fileList := ["d0", "e1", "d1", "e2"], index := 0, cachedFile := none, cachedData := none, sliceIdx := 0, key := .seed 0 }, t := 0, key := k }

/-- It is the state after the constructor. -/
example : ∃ e0, Episodic.init (Episodic.demoSched false) (Episodic.demoRng [0, 3]) Episodic.demoOS Episodic.demoGlob (some 2) (some 2)
    (Episodic.demoInner false ["d0", "e0"]) (.seed 1) = .ok (demoCfg, e0) ∧ ERaw.of e0 = demoStart (KeyTerm.split2 (.seed 1)).1 :=
  ⟨_, rfl, rfl⟩

/-- The calls of the examples: `get_batch(2)` shows these files. -/
def ShowsFiles (draw : List Nat) (s : ERaw Unit KeyTerm KeyTerm) (files : List String) (s' : ERaw Unit KeyTerm KeyTerm) : Prop :=
  ∃ b, Gets 0 Episodic.demoWorld ⟨false, false⟩ (Episodic.demoRng draw) demoCfg 2 s (.ok b) s' ∧ b.files = some files

/-- A `get_batch` that is interrupted while the first file is loaded, and the next one: nothing is lost but a step. -/
example : ∃ b s', EHistory 0 Episodic.demoWorld ⟨false, false⟩ (Episodic.demoRng [0, 3]) demoCfg (demoStart (.seed 1)) [.ok b] 1 s' ∧
    b.files = some ["d0", "e1"] ∧ s'.t = 2 :=
  ⟨_, _, .interrupted (pc := .draw [] (.load "d0")) 6 (by decide) rfl ⟨rfl, id, by simp⟩ (.call (by decide) ⟨27, rfl⟩ (.nil _)), rfl, rfl⟩

/-- **C178 is false once a sample has been obtained**: the interrupted call had obtained d0; the next batch is (e1, d1), where the rows belong to each other's episode (they
should be (d0, e1) or (d1, e2)), and after it the episode is over. -/
theorem C178_refuted_rows : ∃ (m : Nat) (xs : List (Sample Nat)) (pc : Pc Nat Unit) (s1 s2 : ERaw Unit KeyTerm KeyTerm),
    ShowsFiles [0, 3] (demoStart (.seed 1)) ["d0", "e1"] s2 ∧ ∃ s3 s4, ShowsFiles [0, 3] s2 ["d1", "e2"] s3 ∧
    esteps 0 Episodic.demoWorld ⟨false, false⟩ (Episodic.demoRng [0, 3]) demoCfg 2 m (.test, demoStart (.seed 1)) = (.draw xs pc, s1) ∧ ¬ Torn pc ∧
    ShowsFiles [0, 3] s1 ["e1", "d1"] s4 ∧ Gets 0 Episodic.demoWorld ⟨false, false⟩ (Episodic.demoRng [0, 3]) demoCfg 2 s4 (.error .episodeEnd) s4 :=
  ⟨20, _, _, _, _, ⟨_, ⟨27, rfl⟩, rfl⟩, _, _, ⟨_, ⟨31, rfl⟩, rfl⟩, rfl, id, ⟨_, ⟨27, rfl⟩, rfl⟩, ⟨1, rfl⟩⟩

/-- **C178 is false in `next_episode`, before the wrapped `reset`**: after one batch, `next_episode` draws the episodes (e0, e1) and (d1, d2) and is interrupted when
the new list is in place. The next batch is (d1, e1) instead of (e0, d1). -/
theorem C178_refuted_list : ∃ (m : Nat) (s1 s2 s3 s4 s5 : ERaw Unit KeyTerm KeyTerm) (pc : EPc Nat Unit),
    ShowsFiles [2, 1] (demoStart (.seed 1)) ["d0", "e1"] s1 ∧
    Restarts 0 Episodic.demoWorld ⟨false, false⟩ (Episodic.demoRng [2, 1]) demoCfg s1 s2 ∧ ShowsFiles [2, 1] s2 ["e0", "d1"] s3 ∧
    esteps 0 Episodic.demoWorld ⟨false, false⟩ (Episodic.demoRng [2, 1]) demoCfg 2 m (.newKey, s1) = (pc, s4) ∧ ShowsFiles [2, 1] s4 ["d1", "e1"] s5 :=
  ⟨2, _, _, _, _, _, _, ⟨_, ⟨27, rfl⟩, rfl⟩, ⟨8, rfl⟩, ⟨_, ⟨27, rfl⟩, rfl⟩, rfl, ⟨_, ⟨27, rfl⟩, rfl⟩⟩

/-- **C178 is false in `next_episode`, before `_t = 0`**: after one batch, the new episodes (e0, e1) and (d1, d2) are in place, but only their first step is delivered. -/
theorem C178_refuted_step : ∃ (m : Nat) (s1 s4 s5 : ERaw Unit KeyTerm KeyTerm),
    ShowsFiles [2, 1] (demoStart (.seed 1)) ["d0", "e1"] s1 ∧
    esteps 0 Episodic.demoWorld ⟨false, false⟩ (Episodic.demoRng [2, 1]) demoCfg 2 m (.newKey, s1) = (.zero, s4) ∧ ShowsFiles [2, 1] s4 ["e0", "d1"] s5 ∧
    Gets 0 Episodic.demoWorld ⟨false, false⟩ (Episodic.demoRng [2, 1]) demoCfg 2 s5 (.error .episodeEnd) s5 :=
  ⟨7, _, _, _, ⟨_, ⟨27, rfl⟩, rfl⟩, rfl, ⟨_, ⟨27, rfl⟩, rfl⟩, ⟨1, rfl⟩⟩

/-- The hypotheses of `C178_continues` are met: one sample has been obtained, and the second file is being loaded. -/
example : ∃ x s', esteps 0 Episodic.demoWorld ⟨false, false⟩ (Episodic.demoRng [0, 3]) demoCfg 2 20 (.test, demoStart (.seed 1)) = (.draw [x] (.load "e1"), s') ∧
    ¬ Torn (.load "e1" : Pc Nat Unit) ∧ x.files = some ["d0"] ∧ (demoStart (.seed 1)).inner.fileList ≠ [] :=
  ⟨_, _, rfl, id, rfl, by simp [demoStart]⟩

/-- `next_episode` repairs the state of `C178_refuted_rows`: the next batch is (e0, d1), the first step of two new episodes. -/
example : ∃ s1 s2 s3, esteps 0 Episodic.demoWorld ⟨false, false⟩ (Episodic.demoRng [2, 1]) demoCfg 2 20 (.test, demoStart (.seed 1)) = s1 ∧
    Restarts 0 Episodic.demoWorld ⟨false, false⟩ (Episodic.demoRng [2, 1]) demoCfg s1.2 s2 ∧ ShowsFiles [2, 1] s2 ["e0", "d1"] s3 :=
  ⟨_, _, _, rfl, ⟨8, rfl⟩, ⟨_, ⟨27, rfl⟩, rfl⟩⟩

end Verif.InterruptEpisodic
