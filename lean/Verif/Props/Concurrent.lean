import Verif.Model.Concurrent
import Verif.Spec.Concurrent
import Verif.Proofs.Append
import Verif.Props.Base
/-!
# C171: adding files from another thread
-/

namespace Verif.Concurrent
open Verif
open scoped List
variable {V D Key : Type}

/-- The state after `P` has been handed out and the passes that ended at the times `Ts` are complete. -/
structure Kept (w : Base.World V D Key) (c : String → List (Base.Sample V)) (fl : List String) (more : Nat → List String)
    (Ts : List Nat) (P : List (Base.Sample V)) (x : CSt D Key) : Prop where
  inv : Base.Inv w c x.1
  listed : Append.Listed x.1
  list : x.1.fileList = listAt fl more x.2
  stream : P ++ Base.rem c x.1 = Ts.flatMap (fun T => (listAt fl more T).flatMap c) ++ x.1.fileList.flatMap c
  times : Ts.Pairwise (· ≤ ·) ∧ ∀ T ∈ Ts, T ≤ x.2

theorem listAt_succ (fl : List String) (more : Nat → List String) (t : Nat) :
    listAt fl more (t + 1) = listAt fl more t ++ more t := by
  simp [listAt, List.range_succ, List.flatMap_append]

theorem listAt_prefix (fl : List String) (more : Nat → List String) {t t' : Nat} (h : t ≤ t') :
    listAt fl more t <+: listAt fl more t' := by
  induction h with
  | refl => exact List.prefix_rfl
  | step _ ih => rw [Nat.succ_eq_add_one, listAt_succ]; exact ih.trans (List.prefix_append _ _)

variable {w : Base.World V D Key} {c : String → List (Base.Sample V)} {fl : List String} {more : Nat → List String}

theorem see_kept {env : Env} (he : ∀ t l, env t l = l ++ more t) (hn : ∀ t, (listAt fl more t).Nodup)
    (hy : ∀ t, ∀ p ∈ listAt fl more t, Base.Yields w p (c p)) {Ts : List Nat} {P : List (Base.Sample V)} {x : CSt D Key}
    (h : Kept w c fl more Ts P x) : Kept w c fl more Ts P (see env x) := by
  have hlist : (see env x).1.fileList = x.1.fileList ++ more x.2 := he _ _
  have hnd := hn (x.2 + 1)
  rw [listAt_succ, ← h.list] at hnd
  have hnd' := List.nodup_append.mp hnd
  have hrem : Base.rem c (see env x).1 = Base.rem c x.1 ++ (more x.2).flatMap c := by
    have := Append.rem_append c x.1 (more x.2) h.listed hnd'.2.1 (fun p hp hq => hnd'.2.2 p hq p hp rfl)
    rw [← this]; simp only [see, he]
  refine ⟨⟨?_, ?_⟩, ⟨?_, ?_⟩, ?_, ?_, h.times.1, fun T hT => Nat.le_succ_of_le (h.times.2 T hT)⟩
  · intro p hp
    rw [hlist, h.list, ← listAt_succ] at hp
    exact hy _ p hp
  · exact h.inv.cache
  · intro q d hq
    rw [hlist]; exact List.mem_append_left _ (h.listed.1 q d hq)
  · have := h.listed.2
    rw [hlist, List.length_append]
    show x.1.index ≤ _
    omega
  · rw [hlist, h.list, ← listAt_succ]; rfl
  · rw [hrem, hlist, List.flatMap_append, ← List.append_assoc, ← List.append_assoc, ← h.stream]

theorem Kept.stream0 {P : List (Base.Sample V)} {x : CSt D Key} (h : Kept w c fl more [] P x) :
    P ++ Base.rem c x.1 = x.1.fileList.flatMap c := h.stream

theorem body_kept {Ts : List Nat} {P : List (Base.Sample V)} {x : CSt D Key} (h : Kept w c fl more Ts P x)
    (hlt : x.1.index < x.1.fileList.length) :
    (∃ s, Base.body w x.1 = .cont s ∧ Kept w c fl more Ts P (s, x.2)) ∨
      (∃ v s, Base.body w x.1 = .ret v s ∧ Kept w c fl more Ts (P ++ [v]) (s, x.2)) := by
  have hg := Base.body_good h.inv hlt
  have hl := Append.body_listed w _ h.listed
  generalize hb : Base.body w x.1 = st at hg hl
  cases hg with
  | ret v s' g1 g2 g3 g4 g5 =>
    right
    refine ⟨v, s', rfl, g2, hl, g3.trans h.list, ?_, h.times⟩
    show _ = _ ++ s'.fileList.flatMap c
    rw [g3, ← h.stream, g1, List.append_assoc]; rfl
  | cont s' g1 g2 g3 g4 g5 =>
    left
    refine ⟨s', rfl, g2, hl, g3.trans h.list, ?_, h.times⟩
    show _ = _ ++ s'.fileList.flatMap c
    rw [g3, ← h.stream, ← g1]

theorem iterC_kept {env : Env} {cfg : Base.Cfg} (hloop : cfg.loop = false) (he : ∀ t l, env t l = l ++ more t)
    (hn : ∀ t, (listAt fl more t).Nodup) (hy : ∀ t, ∀ p ∈ listAt fl more t, Base.Yields w p (c p))
    {P : List (Base.Sample V)} {x : CSt D Key} (h : Kept w c fl more [] P x) :
    x.2 < (iterC env w cfg x).2 ∧
    ((∃ s, (iterC env w cfg x).1 = .cont s ∧ Kept w c fl more [] P (s, (iterC env w cfg x).2)) ∨
      (∃ v s, (iterC env w cfg x).1 = .ret v s ∧ Kept w c fl more [] (P ++ [v]) (s, (iterC env w cfg x).2)) ∨
      (∃ s, (iterC env w cfg x).1 = .stop s ∧ Kept w c fl more [] P (s, (iterC env w cfg x).2) ∧ Base.rem c s = [])) := by
  have h1 := see_kept he hn hy h
  have h2 := see_kept he hn hy h1
  have h4 := see_kept he hn hy h2
  by_cases hlt : (see env x).1.index < (see env x).1.fileList.length
  · have hgrow : ∀ y : CSt D Key, y.1.index < y.1.fileList.length → (see env y).1.index < (see env y).1.fileList.length := by
      intro y hy'
      have : (see env y).1.fileList = y.1.fileList ++ more y.2 := he _ _
      rw [this, List.length_append]
      show y.1.index < _
      omega
    have hlt2 := hgrow _ hlt
    have hlt4 := hgrow _ hlt2
    have hit : iterC env w cfg x = (Base.body w (see env (see env (see env x))).1, (see env (see env (see env x))).2) := by
      simp only [iterC]
      rw [if_pos (Or.inl hlt), if_neg (by omega)]
    rw [hit]
    refine ⟨by show x.2 < x.2 + 1 + 1 + 1; omega, ?_⟩
    rcases body_kept h4 hlt4 with h | h
    · exact Or.inl h
    · exact Or.inr (Or.inl h)
  · have hit : iterC env w cfg x = (.stop (see env x).1, (see env x).2) := by
      simp only [iterC]
      rw [if_neg (by rw [hloop]; simp only [Bool.false_eq_true, or_false]; exact hlt)]
    rw [hit]
    refine ⟨Nat.lt_succ_self _, Or.inr (Or.inr ⟨_, rfl, h1, ?_⟩)⟩
    have := List.drop_of_length_le (Nat.le_of_not_lt hlt)
    unfold Base.rem; rw [this]
    cases (see env x).1.cached <;> simp [Base.streamAfter]

theorem getNextC_kept {env : Env} {cfg : Base.Cfg} (hloop : cfg.loop = false) (he : ∀ t l, env t l = l ++ more t)
    (hn : ∀ t, (listAt fl more t).Nodup) (hy : ∀ t, ∀ p ∈ listAt fl more t, Base.Yields w p (c p)) :
    ∀ (fuel : Nat) (P : List (Base.Sample V)) (x x' : CSt D Key) (r : Base.Next V), Kept w c fl more [] P x →
      getNextC env w cfg fuel x = some (r, x') → x.2 < x'.2 ∧
      ((∃ v, r = .ret v ∧ Kept w c fl more [] (P ++ [v]) x') ∨ (r = .stop ∧ Kept w c fl more [] P x' ∧ Base.rem c x'.1 = []))
  | 0, P, x, x', r, h, hr => by simp [getNextC] at hr
  | fuel + 1, P, x, x', r, h, hr => by
    obtain ⟨ht, hcase⟩ := iterC_kept hloop he hn hy h
    simp only [getNextC] at hr
    generalize hb : iterC env w cfg x = st at hr ht hcase
    obtain ⟨st, t⟩ := st
    rcases hcase with ⟨s, e, hk⟩ | ⟨v, s, e, hk⟩ | ⟨s, e, hk, hrem⟩
    · simp only at e; subst e
      obtain ⟨g1, g2⟩ := getNextC_kept hloop he hn hy fuel P (s, t) x' r hk hr
      exact ⟨Nat.lt_trans ht g1, g2⟩
    · simp only at e; subst e
      simp only [Option.some.injEq, Prod.mk.injEq] at hr
      obtain ⟨rfl, rfl⟩ := hr
      exact ⟨ht, Or.inl ⟨v, rfl, hk⟩⟩
    · simp only at e; subst e
      simp only [Option.some.injEq, Prod.mk.injEq] at hr
      obtain ⟨rfl, rfl⟩ := hr
      exact ⟨ht, Or.inr ⟨rfl, hk, hrem⟩⟩

theorem collectC_kept {env : Env} {cfg : Base.Cfg} (hloop : cfg.loop = false) (he : ∀ t l, env t l = l ++ more t)
    (hn : ∀ t, (listAt fl more t).Nodup) (hy : ∀ t, ∀ p ∈ listAt fl more t, Base.Yields w p (c p)) (fuel : Nat) :
    ∀ (n : Nat) (P : List (Base.Sample V)) (x x' : CSt D Key) (r), Kept w c fl more [] P x →
      collectC env w cfg fuel n x = some (r, x') → x.2 ≤ x'.2 ∧ ∃ vs, r = .ok vs ∧ vs.length ≤ n ∧
        Kept w c fl more [] (P ++ vs) x' ∧ (vs.length < n → Base.rem c x'.1 = [])
  | 0, P, x, x', r, h, hr => by
    simp only [collectC, Option.some.injEq, Prod.mk.injEq] at hr
    obtain ⟨rfl, rfl⟩ := hr
    exact ⟨Nat.le_refl _, [], rfl, Nat.le_refl _, by rw [List.append_nil]; exact h, fun h => absurd h (Nat.lt_irrefl _)⟩
  | n + 1, P, x, x', r, h, hr => by
    simp only [collectC] at hr
    cases hg : getNextC env w cfg fuel x with
    | none => rw [hg] at hr; cases hr
    | some q =>
      obtain ⟨nx, x1⟩ := q
      rw [hg] at hr
      obtain ⟨ht, hcase⟩ := getNextC_kept hloop he hn hy fuel P x x1 nx h hg
      rcases hcase with ⟨v, rfl, hk⟩ | ⟨rfl, hk, hrem⟩
      · simp only at hr
        cases hc : collectC env w cfg fuel n x1 with
        | none => rw [hc] at hr; cases hr
        | some q' =>
          obtain ⟨r', x2⟩ := q'
          rw [hc] at hr
          obtain ⟨g1, vs, rfl, g2, g3, g4⟩ := collectC_kept hloop he hn hy fuel n (P ++ [v]) x1 x2 r' hk hc
          simp only [Option.some.injEq, Prod.mk.injEq] at hr
          obtain ⟨rfl, rfl⟩ := hr
          refine ⟨by omega, v :: vs, rfl, by simp only [List.length_cons]; omega, ?_, ?_⟩
          · rw [List.append_assoc] at g3; exact g3
          · intro hlt; exact g4 (by simp only [List.length_cons] at hlt; omega)
      · simp only [Option.some.injEq, Prod.mk.injEq] at hr
        obtain ⟨rfl, rfl⟩ := hr
        exact ⟨Nat.le_of_lt ht, [], rfl, Nat.zero_le _, by rw [List.append_nil]; exact hk, fun _ => hrem⟩

theorem runC_kept (zero : V) {env : Env} {cfg : Base.Cfg} (hloop : cfg.loop = false) (he : ∀ t l, env t l = l ++ more t)
    (hn : ∀ t, (listAt fl more t).Nodup) (hy : ∀ t, ∀ p ∈ listAt fl more t, Base.Yields w p (c p)) {fsh o1 o2 named}
    (hu : ∀ t, Base.Uniform ((listAt fl more t).flatMap c) fsh o1 o2 named) (fuel : Nat) :
    ∀ (ns : List Nat) (P : List (Base.Sample V)) (x x' : CSt D Key) (rs), Kept w c fl more [] P x →
      runC zero env w cfg fuel ns x = some (rs, x') →
      ∃ xss : List (List (Base.Sample V)), List.Forall₂ Hands xss (rs.map Prod.snd) ∧ Kept w c fl more [] (P ++ xss.flatten) x' ∧
        List.Forall₂ (fun n vs => vs.length ≤ n) ns xss ∧
        ∀ i (hi : i < ns.length) (hx : i < xss.length) (hr : i < rs.length), xss[i].length < ns[i] →
          (listAt fl more rs[i].1).flatMap c <+: P ++ (xss.take (i + 1)).flatten
  | [], P, x, x', rs, h, hr => by
    simp only [runC, Option.some.injEq, Prod.mk.injEq] at hr
    obtain ⟨rfl, rfl⟩ := hr
    exact ⟨[], List.Forall₂.nil, by simpa using h, List.Forall₂.nil, fun i hi => absurd hi (Nat.not_lt_zero _)⟩
  | n :: ns, P, x, x', rs, h, hr => by
    simp only [runC] at hr
    cases hg : getBatchC zero env w cfg fuel n x with
    | none => rw [hg] at hr; cases hr
    | some q =>
      obtain ⟨r, x1⟩ := q
      rw [hg] at hr
      simp only at hr
      cases hc : runC zero env w cfg fuel ns x1 with
      | none => rw [hc] at hr; cases hr
      | some q' =>
        obtain ⟨rs', x2⟩ := q'
        rw [hc] at hr
        simp only [Option.some.injEq, Prod.mk.injEq] at hr
        obtain ⟨rfl, rfl⟩ := hr
        simp only [getBatchC] at hg
        cases hcc : collectC env w cfg fuel n x with
        | none => rw [hcc] at hg; cases hg
        | some q'' =>
          obtain ⟨r0, x0⟩ := q''
          rw [hcc] at hg
          obtain ⟨ht, vs, rfl, g2, g3, g4⟩ := collectC_kept hloop he hn hy fuel n P x x0 r0 h hcc
          have hx01 : x1 = x0 := by
            simp only [hloop] at hg
            split at hg <;> (simp only [Bool.false_eq_true, if_false, Option.some.injEq, Prod.mk.injEq] at hg; exact hg.2.symm)
          subst hx01
          have hans : Hands vs r := by
            by_cases hv : vs = []
            · subst hv
              simp only [List.isEmpty_nil, if_true, hloop, Bool.false_eq_true, if_false, Option.some.injEq, Prod.mk.injEq] at hg
              obtain ⟨rfl, _⟩ := hg
              exact ⟨fun _ => rfl, fun h' => absurd rfl h', rfl⟩
            · have hemp : vs.isEmpty = false := by cases vs with
                | nil => exact absurd rfl hv
                | cons => rfl
              simp only [hemp, Bool.false_eq_true, if_false, Option.some.injEq, Prod.mk.injEq] at hg
              obtain ⟨rfl, _⟩ := hg
              obtain ⟨b, hb, _, hd⟩ := Base.assemble_uniform zero cfg hv (n := n) g2 (by simp [hloop])
                (Base.uniform_sub (hu x1.2) (fun v hv' => by
                  rw [← g3.list, ← g3.stream0]
                  exact List.mem_append_left _ (List.mem_append_right _ hv')))
              exact ⟨fun h' => absurd h' hv, fun _ => ⟨b, hb⟩, by rw [hb, hd]⟩
          obtain ⟨xss, k1, k2, k3, k4⟩ := runC_kept zero hloop he hn hy hu fuel ns (P ++ vs) x1 x2 rs' g3 hc
          refine ⟨vs :: xss, List.Forall₂.cons hans k1, ?_, List.Forall₂.cons g2 k3, ?_⟩
          · rw [List.flatten_cons, ← List.append_assoc]; exact k2
          · intro i hi hx hr hlt
            cases i with
            | zero =>
              simp only [List.getElem_cons_zero] at hlt ⊢
              have hrem := g4 hlt
              have := g3.stream0
              rw [hrem, List.append_nil, g3.list] at this
              simp only [List.take_succ_cons, List.take_zero, List.flatten_cons, List.flatten_nil, List.append_nil]
              rw [this]
              obtain ⟨tl, htl⟩ := listAt_prefix fl more ht
              rw [← htl, List.flatMap_append]
              exact List.prefix_append _ _
            | succ i =>
              simp only [List.getElem_cons_succ, List.length_cons] at hlt hi hx hr ⊢
              have := k4 i (by omega) (by omega) (by omega) hlt
              rw [List.take_succ_cons, List.flatten_cons, ← List.append_assoc]
              exact this

/-- **C171**: another thread appends files to the list of a scheduler that does not loop, at any moments during the calls of
`get_batch`, no file being in the list twice. Then every request that returns hands out the next samples of the files in the order
of the list: nothing is lost, repeated or out of order; no exception but `StopIteration` is raised, and a request that hands out fewer
samples than asked for has come to the end of all files that were in the list when it was made. -/
theorem C171_queue (zero : V) (w : Base.World V D Key) (cfg : Base.Cfg) (hloop : cfg.loop = false) (fl : List String) (key : Key)
    (hr : cfg.randomize = false) (c : String → List (Base.Sample V)) (more : Nat → List String)
    (hn : ∀ t, (listAt fl more t).Nodup) (hy : ∀ t, ∀ p ∈ listAt fl more t, Base.Yields w p (c p)) {fsh o1 o2 named}
    (hu : ∀ t, Base.Uniform ((listAt fl more t).flatMap c) fsh o1 o2 named) (fuel : Nat) (ns : List Nat)
    (rs : List (Nat × Except Exc (Base.Batch V))) (x' : CSt D Key)
    (h : runC zero (fun t l => l ++ more t) w cfg fuel ns (Base.init w cfg fl key, 0) = some (rs, x')) :
    ∃ xss : List (List (Base.Sample V)), List.Forall₂ Hands xss (rs.map Prod.snd) ∧
      x'.1.fileList = listAt fl more x'.2 ∧ xss.flatten <+: (listAt fl more x'.2).flatMap c ∧
      List.Forall₂ (fun n vs => vs.length ≤ n) ns xss ∧
      ∀ i (hi : i < ns.length) (hx : i < xss.length) (hr : i < rs.length), xss[i].length < ns[i] →
        (listAt fl more rs[i].1).flatMap c <+: (xss.take (i + 1)).flatten := by
  have h0 : listAt fl more 0 = fl := by simp [listAt]
  have hfl : (Base.init w cfg fl key : Base.St D Key).fileList = fl := by simp [Base.init, Base.shuffle, hr]
  have hstart : Kept w c fl more [] [] (Base.init w cfg fl key, 0) := by
    refine ⟨Base.inv_fresh (fun p hp => hy 0 p ?_), ⟨(fun q d hq => by cases hq), Nat.zero_le _⟩, hfl.trans h0.symm, ?_,
      List.Pairwise.nil, fun T hT => by cases hT⟩
    · rw [h0]; rw [← hfl]; exact hp
    · show Base.rem c (Base.init w cfg fl key) = _
      rw [Base.rem_fresh _ rfl rfl, hfl]
      exact Append.streamAfter_plain c _ none (h0 ▸ hn 0) (fun p _ e => by cases e)
  obtain ⟨xss, k1, k2, k3, k4⟩ := runC_kept zero hloop (fun _ _ => rfl) hn hy hu fuel ns [] _ x' rs hstart h
  refine ⟨xss, k1, k2.list, ?_, k3, k4⟩
  rw [← k2.list, ← k2.stream0]
  exact List.prefix_append _ _

/-- `b` is added while the first of `a` is being read, after the end of the list `["a"]` has not yet been seen: it is served in the
same request. -/
example : (runC 0 (fun t l => l ++ if t = 1 then ["b"] else []) Base.Demo.world ⟨false, false⟩ 7 [4, 1]
      (Base.init Base.Demo.world ⟨false, false⟩ ["a"] (.seed 0), 0)).map (fun q => q.1.map (fun r => (Base.delivered r.2).map (·.file))) =
    some [[some "a", some "a", some "b"], []] := rfl

/-! ## Looping -/

theorem rem_end (s : Base.St D Key) (h : s.fileList.length ≤ s.index) : Base.rem c s = [] := by
  unfold Base.rem; rw [List.drop_of_length_le h]
  cases s.cached <;> simp [Base.streamAfter]

theorem iterC_kept_loop {env : Env} {cfg : Base.Cfg} (hloop : cfg.loop = true) (hr : cfg.randomize = false) (hfl : fl ≠ [])
    (he : ∀ t l, env t l = l ++ more t)
    (hn : ∀ t, (listAt fl more t).Nodup) (hy : ∀ t, ∀ p ∈ listAt fl more t, Base.Yields w p (c p))
    {Ts : List Nat} {P : List (Base.Sample V)} {x : CSt D Key} (h : Kept w c fl more Ts P x) :
    ∃ Ts', x.2 < (iterC env w cfg x).2 ∧
    ((∃ s, (iterC env w cfg x).1 = .cont s ∧ Kept w c fl more Ts' P (s, (iterC env w cfg x).2)) ∨
      (∃ v s, (iterC env w cfg x).1 = .ret v s ∧ Kept w c fl more Ts' (P ++ [v]) (s, (iterC env w cfg x).2))) := by
  have h1 := see_kept he hn hy h
  have h2 := see_kept he hn hy h1
  by_cases hwrap : (see env (see env x)).1.fileList.length ≤ (see env (see env x)).1.index
  · have hreset : resetC env w cfg (see env (see env x)) =
        (.ok (), ({ (see env (see env x)).1 with index := 0, cached := none, sliceIdx := 0 }, (see env (see env x)).2)) := by
      simp [resetC, hr]
    have h3 : Kept w c fl more (Ts ++ [(see env (see env x)).2]) P
        ({ (see env (see env x)).1 with index := 0, cached := none, sliceIdx := 0 }, (see env (see env x)).2) := by
      have hstream := h2.stream
      rw [rem_end _ hwrap, List.append_nil] at hstream
      refine ⟨⟨h2.inv.yields, fun q d hq => by cases hq⟩, ⟨(fun q d hq => by cases hq), Nat.zero_le _⟩, h2.list, ?_, ?_, ?_⟩
      · rw [Base.rem_fresh _ rfl rfl, List.flatMap_append, hstream, h2.list]
        simp only [List.flatMap_cons, List.flatMap_nil, List.append_nil]
        rw [Append.streamAfter_plain c _ none (hn _) (fun p _ e => by cases e)]
      · rw [List.pairwise_append]
        refine ⟨h2.times.1, List.pairwise_singleton _ _, ?_⟩
        intro a ha b hb
        rw [List.mem_singleton] at hb
        rw [hb]; exact h2.times.2 a ha
      · intro T hT
        rcases List.mem_append.mp hT with hT | hT
        · exact h2.times.2 T hT
        · rw [List.mem_singleton] at hT; rw [hT]
    have h4 := see_kept he hn hy h3
    have hlt4 : (see env (({ (see env (see env x)).1 with index := 0, cached := none, sliceIdx := 0 }, (see env (see env x)).2) : CSt D Key)).1.index <
        (see env (({ (see env (see env x)).1 with index := 0, cached := none, sliceIdx := 0 }, (see env (see env x)).2) : CSt D Key)).1.fileList.length := by
      rw [h4.list]
      show 0 < _
      rw [listAt, List.length_append]
      have := List.length_pos_iff.mpr hfl
      omega
    have hit : iterC env w cfg x = (Base.body w (see env (({ (see env (see env x)).1 with index := 0, cached := none, sliceIdx := 0 }, (see env (see env x)).2) : CSt D Key)).1,
        (see env (({ (see env (see env x)).1 with index := 0, cached := none, sliceIdx := 0 }, (see env (see env x)).2) : CSt D Key)).2) := by
      simp only [iterC]
      rw [if_pos (Or.inr hloop), if_pos hwrap, hreset]
    rw [hit]
    exact ⟨_, by show x.2 < x.2 + 1 + 1 + 1; omega, body_kept h4 hlt4⟩
  · have h4 := see_kept he hn hy h2
    have hlt4 : (see env (see env (see env x))).1.index < (see env (see env (see env x))).1.fileList.length := by
      have : (see env (see env (see env x))).1.fileList = (see env (see env x)).1.fileList ++ more (see env (see env x)).2 := he _ _
      rw [this, List.length_append]
      show (see env (see env x)).1.index < _
      omega
    have hit : iterC env w cfg x = (Base.body w (see env (see env (see env x))).1, (see env (see env (see env x))).2) := by
      simp only [iterC]
      rw [if_pos (Or.inr hloop), if_neg hwrap]
    rw [hit]
    exact ⟨Ts, by show x.2 < x.2 + 1 + 1 + 1; omega, body_kept h4 hlt4⟩

theorem getNextC_kept_loop {env : Env} {cfg : Base.Cfg} (hloop : cfg.loop = true) (hr : cfg.randomize = false) (hfl : fl ≠ [])
    (he : ∀ t l, env t l = l ++ more t)
    (hn : ∀ t, (listAt fl more t).Nodup) (hy : ∀ t, ∀ p ∈ listAt fl more t, Base.Yields w p (c p)) :
    ∀ (fuel : Nat) (Ts : List Nat) (P : List (Base.Sample V)) (x x' : CSt D Key) (r : Base.Next V), Kept w c fl more Ts P x →
      getNextC env w cfg fuel x = some (r, x') → ∃ Ts' v, r = .ret v ∧ Kept w c fl more Ts' (P ++ [v]) x'
  | 0, Ts, P, x, x', r, h, hg => by simp [getNextC] at hg
  | fuel + 1, Ts, P, x, x', r, h, hg => by
    obtain ⟨Ts', ht, hcase⟩ := iterC_kept_loop hloop hr hfl he hn hy h
    simp only [getNextC] at hg
    generalize hb : iterC env w cfg x = st at hg ht hcase
    obtain ⟨st, t⟩ := st
    rcases hcase with ⟨s, e, hk⟩ | ⟨v, s, e, hk⟩
    · simp only at e; subst e
      exact getNextC_kept_loop hloop hr hfl he hn hy fuel Ts' P (s, t) x' r hk hg
    · simp only at e; subst e
      simp only [Option.some.injEq, Prod.mk.injEq] at hg
      obtain ⟨rfl, rfl⟩ := hg
      exact ⟨Ts', v, rfl, hk⟩

theorem collectC_kept_loop {env : Env} {cfg : Base.Cfg} (hloop : cfg.loop = true) (hr : cfg.randomize = false) (hfl : fl ≠ [])
    (he : ∀ t l, env t l = l ++ more t)
    (hn : ∀ t, (listAt fl more t).Nodup) (hy : ∀ t, ∀ p ∈ listAt fl more t, Base.Yields w p (c p)) (fuel : Nat) :
    ∀ (n : Nat) (Ts : List Nat) (P : List (Base.Sample V)) (x x' : CSt D Key) (r), Kept w c fl more Ts P x →
      collectC env w cfg fuel n x = some (r, x') → ∃ Ts' vs, r = .ok vs ∧ vs.length = n ∧ Kept w c fl more Ts' (P ++ vs) x'
  | 0, Ts, P, x, x', r, h, hg => by
    simp only [collectC, Option.some.injEq, Prod.mk.injEq] at hg
    obtain ⟨rfl, rfl⟩ := hg
    exact ⟨Ts, [], rfl, rfl, by rw [List.append_nil]; exact h⟩
  | n + 1, Ts, P, x, x', r, h, hg => by
    simp only [collectC] at hg
    cases hx : getNextC env w cfg fuel x with
    | none => rw [hx] at hg; cases hg
    | some q =>
      obtain ⟨nx, x1⟩ := q
      rw [hx] at hg
      obtain ⟨Ts1, v, rfl, hk⟩ := getNextC_kept_loop hloop hr hfl he hn hy fuel Ts P x x1 nx h hx
      simp only at hg
      cases hc : collectC env w cfg fuel n x1 with
      | none => rw [hc] at hg; cases hg
      | some q' =>
        obtain ⟨r', x2⟩ := q'
        rw [hc] at hg
        obtain ⟨Ts2, vs, rfl, g2, g3⟩ := collectC_kept_loop hloop hr hfl he hn hy fuel n Ts1 (P ++ [v]) x1 x2 r' hk hc
        simp only [Option.some.injEq, Prod.mk.injEq] at hg
        obtain ⟨rfl, rfl⟩ := hg
        refine ⟨Ts2, v :: vs, rfl, by simp [g2], ?_⟩
        rw [List.append_assoc] at g3; exact g3

theorem runC_kept_loop (zero : V) {env : Env} {cfg : Base.Cfg} (hloop : cfg.loop = true) (hr : cfg.randomize = false) (hfl : fl ≠ [])
    (he : ∀ t l, env t l = l ++ more t)
    (hn : ∀ t, (listAt fl more t).Nodup) (hy : ∀ t, ∀ p ∈ listAt fl more t, Base.Yields w p (c p)) {fsh o1 o2 named}
    (hu : ∀ t, Base.Uniform ((listAt fl more t).flatMap c) fsh o1 o2 named) (fuel : Nat) :
    ∀ (ns : List Nat), (∀ n ∈ ns, 0 < n) → ∀ (Ts : List Nat) (P : List (Base.Sample V)) (x x' : CSt D Key) (rs), Kept w c fl more Ts P x →
      runC zero env w cfg fuel ns x = some (rs, x') →
      ∃ Ts' vs, Kept w c fl more Ts' (P ++ vs) x' ∧ vs.length = ns.sum ∧ (∀ r ∈ rs.map Prod.snd, ∃ b, r = .ok b) ∧
        (rs.map Prod.snd).flatMap Base.delivered = vs.map Base.Sample.row
  | [], _, Ts, P, x, x', rs, h, hg => by
    simp only [runC, Option.some.injEq, Prod.mk.injEq] at hg
    obtain ⟨rfl, rfl⟩ := hg
    exact ⟨Ts, [], by rw [List.append_nil]; exact h, rfl, fun r hr => by simp at hr, rfl⟩
  | n :: ns, hpos, Ts, P, x, x', rs, h, hg => by
    simp only [runC] at hg
    cases hb : getBatchC zero env w cfg fuel n x with
    | none => rw [hb] at hg; cases hg
    | some q =>
      obtain ⟨r, x1⟩ := q
      rw [hb] at hg
      simp only at hg
      cases hc : runC zero env w cfg fuel ns x1 with
      | none => rw [hc] at hg; cases hg
      | some q' =>
        obtain ⟨rs', x2⟩ := q'
        rw [hc] at hg
        simp only [Option.some.injEq, Prod.mk.injEq] at hg
        obtain ⟨rfl, rfl⟩ := hg
        simp only [getBatchC] at hb
        cases hcc : collectC env w cfg fuel n x with
        | none => rw [hcc] at hb; cases hb
        | some q'' =>
          obtain ⟨r0, x0⟩ := q''
          rw [hcc] at hb
          obtain ⟨Ts1, vs, rfl, g2, g3⟩ := collectC_kept_loop hloop hr hfl he hn hy fuel n Ts P x x0 r0 h hcc
          have hn0 := hpos n (by simp)
          have hv : vs ≠ [] := by rintro rfl; simp at g2; omega
          have hemp : vs.isEmpty = false := by cases vs with
            | nil => exact absurd rfl hv
            | cons => rfl
          simp only [hemp, Bool.false_eq_true, if_false, Option.some.injEq, Prod.mk.injEq] at hb
          obtain ⟨rfl, rfl⟩ := hb
          have humem : ∀ v ∈ vs, ∃ T, v ∈ (listAt fl more T).flatMap c ∧ T ≤ x0.2 := by
            intro v hv'
            have : v ∈ Ts1.flatMap (fun T => (listAt fl more T).flatMap c) ++ x0.1.fileList.flatMap c := by
              rw [← g3.stream]; exact List.mem_append_left _ (List.mem_append_right _ hv')
            rcases List.mem_append.mp this with hm | hm
            · obtain ⟨T, hT, hvT⟩ := List.mem_flatMap.mp hm
              exact ⟨T, hvT, g3.times.2 T hT⟩
            · rw [g3.list] at hm; exact ⟨x0.2, hm, Nat.le_refl _⟩
          have huv : Base.Uniform vs fsh o1 o2 named := Base.uniform_sub (hu x0.2) (fun v hv' => by
            obtain ⟨T, hvT, hT⟩ := humem v hv'
            obtain ⟨tl, htl⟩ := listAt_prefix fl more hT
            rw [← htl, List.flatMap_append]
            exact List.mem_append_left _ hvT)
          obtain ⟨b, hb, _, hd⟩ := Base.assemble_uniform zero cfg hv (n := n) (by omega) (fun _ => g2) huv
          obtain ⟨Ts2, vs2, k1, k2, k3, k4⟩ := runC_kept_loop zero hloop hr hfl he hn hy hu fuel ns (fun m hm => hpos m (by simp [hm]))
            Ts1 (P ++ vs) x0 x2 rs' g3 hc
          refine ⟨Ts2, vs ++ vs2, by rw [← List.append_assoc]; exact k1, by simp [g2, k2], ?_, ?_⟩
          · intro r hr'
            rw [List.map_cons, List.mem_cons] at hr'
            rcases hr' with rfl | hr'
            · exact ⟨b, hb⟩
            · exact k3 r hr'
          · rw [List.map_cons, List.flatMap_cons, k4, hb, hd, List.map_append]

/-- **C171** for schedulers that loop but do not shuffle: every request that returns is answered in full, and what is handed out are
complete passes, each through the list as it was at some moment, the moments being in order; the last pass may be in progress. -/
theorem C171_loop (zero : V) (w : Base.World V D Key) (cfg : Base.Cfg) (hloop : cfg.loop = true) (fl : List String) (hfl : fl ≠ [])
    (key : Key) (hr : cfg.randomize = false) (c : String → List (Base.Sample V)) (more : Nat → List String)
    (hn : ∀ t, (listAt fl more t).Nodup) (hy : ∀ t, ∀ p ∈ listAt fl more t, Base.Yields w p (c p)) {fsh o1 o2 named}
    (hu : ∀ t, Base.Uniform ((listAt fl more t).flatMap c) fsh o1 o2 named) (fuel : Nat) (ns : List Nat) (hpos : ∀ n ∈ ns, 0 < n)
    (rs : List (Nat × Except Exc (Base.Batch V))) (x' : CSt D Key)
    (h : runC zero (fun t l => l ++ more t) w cfg fuel ns (Base.init w cfg fl key, 0) = some (rs, x')) :
    ∃ (Ts : List Nat) (vs : List (Base.Sample V)), (∀ r ∈ rs.map Prod.snd, ∃ b, r = .ok b) ∧ vs.length = ns.sum ∧
      (rs.map Prod.snd).flatMap Base.delivered = vs.map Base.Sample.row ∧
      Ts.Pairwise (· ≤ ·) ∧ (∀ T ∈ Ts, T ≤ x'.2) ∧
      ∃ rest, rest <+ (listAt fl more x'.2).flatMap c ∧
        vs ++ rest = Ts.flatMap (fun T => (listAt fl more T).flatMap c) ++ (listAt fl more x'.2).flatMap c := by
  have h0 : listAt fl more 0 = fl := by simp [listAt]
  have hfl' : (Base.init w cfg fl key : Base.St D Key).fileList = fl := by simp [Base.init, Base.shuffle, hr]
  have hstart : Kept w c fl more [] [] (Base.init w cfg fl key, 0) := by
    refine ⟨Base.inv_fresh (fun p hp => hy 0 p ?_), ⟨(fun q d hq => by cases hq), Nat.zero_le _⟩, hfl'.trans h0.symm, ?_,
      List.Pairwise.nil, fun T hT => by cases hT⟩
    · rw [h0]; rw [← hfl']; exact hp
    · show Base.rem c (Base.init w cfg fl key) = _
      rw [Base.rem_fresh _ rfl rfl, hfl']
      exact Append.streamAfter_plain c _ none (h0 ▸ hn 0) (fun p _ e => by cases e)
  obtain ⟨Ts, vs, k1, k2, k3, k4⟩ := runC_kept_loop zero hloop hr hfl (fun _ _ => rfl) hn hy hu fuel ns hpos [] [] _ x' rs hstart h
  refine ⟨Ts, vs, k3, k2, k4, k1.times.1, k1.times.2, Base.rem c x'.1, ?_, ?_⟩
  · have := Append.rem_sublist c x'.1
    rw [k1.list] at this; exact this
  · have := k1.stream
    rw [k1.list] at this; exact this

/-- `b` is added in the second pass through `a`. -/
example : (runC 0 (fun t l => l ++ if t = 11 then ["b"] else []) Base.Demo.world ⟨true, false⟩ 7 [4, 4]
      (Base.init Base.Demo.world ⟨true, false⟩ ["a"] (.seed 0), 0)).map (fun q => q.1.map (fun r => (Base.delivered r.2).map (·.file))) =
    some [[some "a", some "a", some "a", some "a"], [some "b", some "a", some "a", some "b"]] := rfl

/-- Nobody else touches the list: the calls are those of the other models. -/
theorem C171_alone (w : Base.World V D Key) (c : Base.Cfg) (hr : c.randomize = false) (x : CSt D Key) :
    (iterC (fun _ l => l) w c x).1 = Base.iter w c x.1 := by
  have hs : ∀ y : CSt D Key, (see (fun _ l => l) y).1 = y.1 := fun _ => rfl
  simp only [iterC, Base.iter, hs]
  by_cases h : x.1.index < x.1.fileList.length
  · rw [if_pos (Or.inl h), if_pos h, if_neg (by omega)]
    simp only [hs]
  · rw [if_neg h]
    cases hl : c.loop
    · rw [if_neg (by simp [h])]; rfl
    · rw [if_pos (Or.inr rfl), if_pos (by omega)]
      simp only [resetC, hr, Bool.false_eq_true, if_false, hs, if_true]
      congr 1
      simp [Base.reset, Base.shuffle, hr]

/-- **C171 is false for other assignments**: if the list is replaced by one that ends before the current position, between the moment
when the position is compared with the length and the moment when the file is looked up, `get_batch` raises `IndexError`, whatever the
scheduler and its files. (The worker thread of a prefetching scheduler ends with it.) -/
theorem C171_refuted_shorter (zero : V) (w : Base.World V D Key) (c : Base.Cfg) (s : Base.St D Key) (t : Nat)
    (hi : s.index < s.fileList.length) (l : List String) (hl : l.length ≤ s.index) (fuel n : Nat) :
    ∃ x', getBatchC zero (fun u old => if u = t + 2 then l else old) w c (fuel + 1) (n + 1) (s, t) =
      some (.error .indexError, x') := by
  have h1 : see (fun u old => if u = t + 2 then l else old) (s, t) = (s, t + 1) := by
    simp [see]
  have h2 : see (fun u old => if u = t + 2 then l else old) (s, t + 1) = (s, t + 2) := by
    simp [see]
  have h3 : see (fun u old => if u = t + 2 then l else old) (s, t + 2) = ({ s with fileList := l }, t + 3) := by
    simp [see]
  have hnone : l[s.index]? = none := List.getElem?_eq_none hl
  have hit : iterC (fun u old => if u = t + 2 then l else old) w c (s, t) =
      (.raise .indexError { s with fileList := l }, t + 3) := by
    simp only [iterC, h1, h2]
    rw [if_pos (Or.inl hi), if_neg (by omega)]
    simp only [h3, Base.body, hnone]
  refine ⟨({ s with fileList := l }, t + 3), ?_⟩
  simp [getBatchC, collectC, getNextC, hit]

theorem pickC_grow (more : Nat → List String) : ∀ (is : List Nat) (x : CSt D Key), (∀ i ∈ is, i < x.1.fileList.length) →
    ∃ x', pickC (fun t l => l ++ more t) is x = (.ok (Base.pick x.1.fileList is), x')
  | [], x, _ => ⟨x, rfl⟩
  | i :: is, x, h => by
    have hs : (see (fun t l => l ++ more t) x).1.fileList = x.1.fileList ++ more x.2 := rfl
    have hi := h i (by simp)
    obtain ⟨x', hx⟩ := pickC_grow more is (see (fun t l => l ++ more t) x) (by
      intro j hj
      have := h j (by simp [hj])
      rw [hs, List.length_append]; omega)
    have hget : (see (fun t l => l ++ more t) x).1.fileList[i]? = some (x.1.fileList.getD i "") := by
      rw [hs, List.getElem?_append_left hi, List.getD_eq_getElem?_getD, List.getElem?_eq_getElem hi]; rfl
    have hpick : Base.pick (see (fun t l => l ++ more t) x).1.fileList is = Base.pick x.1.fileList is := by
      unfold Base.pick
      refine List.map_congr_left ?_
      intro j hj
      have hj' := h j (by simp [hj])
      rw [hs, List.getD_eq_getElem?_getD, List.getElem?_append_left hj', ← List.getD_eq_getElem?_getD]
    refine ⟨x', ?_⟩
    rw [pickC]
    simp only [hget, hx, hpick]
    rfl

/-- **C171 is false for schedulers that shuffle**: when a looping scheduler comes to the end and shuffles, files that are added after
the length of the list has been read are lost, whatever they are and however many: the new list is a permutation of the one whose
length was read. -/
theorem C171_refuted_shuffle (w : Base.World V D Key) (hp : Base.PermOK w) (c : Base.Cfg) (hr : c.randomize = true)
    (more : Nat → List String) (x : CSt D Key) :
    ∃ x', resetC (fun t l => l ++ more t) w c x = (.ok (), x') ∧ x'.1.fileList.Perm (x.1.fileList ++ more x.2) := by
  obtain ⟨x2, hx⟩ := pickC_grow more (w.perm (w.split x.1.key).2 (x.1.fileList ++ more x.2).length)
    (see (fun t l => l ++ more t) ({ x.1 with index := 0, cached := none, sliceIdx := 0, key := (w.split x.1.key).1 }, x.2)) (by
      intro i hi
      have := (hp (w.split x.1.key).2 (x.1.fileList ++ more x.2).length).mem_iff.mp hi
      exact List.mem_range.mp this)
  refine ⟨({ x2.1 with fileList := Base.pick (x.1.fileList ++ more x.2) (w.perm (w.split x.1.key).2 (x.1.fileList ++ more x.2).length) }, x2.2), ?_, ?_⟩
  · simp only [resetC, hr, if_true]
    have hs : (see (fun t l => l ++ more t) (({ x.1 with index := 0, cached := none, sliceIdx := 0, key := (w.split x.1.key).1 }, x.2) : CSt D Key)).1.fileList =
      x.1.fileList ++ more x.2 := rfl
    rw [hs] at hx ⊢
    rw [hx]
  · have := Base.shuffle_perm (w := w) (cfg := c) (fun _ => hp) (x.1.fileList ++ more x.2) x.1.key
    simpa [Base.shuffle, hr] using this

end Verif.Concurrent
