import Verif.Spec.Unreadable
import Verif.Props.Base
/-!
# C06: exactly when unreadable files leave no trace
-/

namespace Verif.Base
open Verif
variable {V D Key : Type}

/-- The stream of the filtered list when the last readable file was `a`. -/
private def after (c : String → List (Sample V)) (a : Option String) (l : List String) : List (Sample V) :=
  match a with
  | none => (dropRepeats l).flatMap c
  | some a => (dropRepeats.go a l).flatMap c

private def sepFrom (ok : String → Bool) (c : String → List (Sample V)) : Option String → Bool → List String → Prop
  | _, _, [] => False
  | a, since, q :: l => if ok q then (since = true ∧ a = some q ∧ c q ≠ []) ∨ sepFrom ok c (some q) false l else sepFrom ok c a true l

private theorem after_cons (c : String → List (Sample V)) (a : Option String) (q : String) (l : List String) :
    after c a (q :: l) = (if a = some q then [] else c q) ++ after c (some q) l := by
  cases a with
  | none => simp [after, dropRepeats]
  | some a =>
    by_cases h : q = a
    · subst h; simp [after, dropRepeats.go]
    · have : ¬ a = q := fun e => h e.symm
      simp [after, dropRepeats.go, h, this]

/-- `x` is the last file of the full list, `a` the last readable one; `since` if there is an unreadable one in between. -/
private theorem compare (ok : String → Bool) (c : String → List (Sample V)) : ∀ (l : List String) (a x : Option String) (since : Bool),
    (∀ p ∈ l, ok p = false → c p = []) → (since = false → x = a) → (since = true → ∀ p, x = some p → ok p = false) →
    (¬ sepFrom ok c a since l → after c x l = after c a (l.filter ok)) ∧
    (sepFrom ok c a since l → (after c a (l.filter ok)).length < (after c x l).length)
  | [], a, x, since, _, _, _ => by
    refine ⟨fun _ => ?_, fun h => h.elim⟩
    cases a <;> cases x <;> rfl
  | q :: l, a, x, since, hb, h1, h2 => by
    have hb' : ∀ p ∈ l, ok p = false → c p = [] := fun p hp => hb p (List.mem_cons_of_mem _ hp)
    cases hq : ok q with
    | false =>
      have ih := compare ok c l a (some q) true hb' (by simp) (fun _ p hp => by simp only [Option.some.injEq] at hp; exact hp ▸ hq)
      have hc : c q = [] := hb q (List.mem_cons_self ..) hq
      rw [after_cons, hc, List.filter_cons, hq, sepFrom, hq]
      simpa using ih
    | true =>
      have ih := compare ok c l (some q) (some q) false hb' (by simp) (by simp)
      rw [after_cons, List.filter_cons, hq, if_pos rfl, after_cons, sepFrom, hq]
      simp only [if_true, not_or, List.length_append]
      have hle : (after c (some q) (l.filter ok)).length ≤ (after c (some q) l).length := by
        by_cases hs : sepFrom ok c (some q) false l
        · exact (ih.2 hs).le
        · exact (congrArg List.length (ih.1 hs)).ge
      cases since with
      | false =>
        have := h1 rfl
        subst this
        refine ⟨fun h => by rw [ih.1 h.2], fun h => ?_⟩
        rcases h with ⟨h, _⟩ | h
        · simp at h
        · have := ih.2 h
          omega
      | true =>
        have hx : x ≠ some q := fun e => by have := h2 rfl q e; rw [hq] at this; simp at this
        rw [if_neg hx]
        by_cases ha : a = some q
        · rw [if_pos ha]
          constructor
          · intro h
            have hc : c q = [] := by
              by_contra hc
              exact h.1 ⟨rfl, ha, hc⟩
            rw [ih.1 h.2, hc]
          · intro h
            rcases h with ⟨_, _, h⟩ | h
            · have : 0 < (c q).length := List.length_pos_iff.mpr h
              simp only [List.length_nil]
              omega
            · have := ih.2 h
              simp only [List.length_nil]
              omega
        · rw [if_neg ha]
          refine ⟨fun h => by rw [ih.1 h.2], fun h => ?_⟩
          rcases h with ⟨_, h, _⟩ | h
          · exact absurd h ha
          · have := ih.2 h
            omega

private theorem sepFrom_iff (ok : String → Bool) (c : String → List (Sample V)) : ∀ (l : List String) (a : Option String) (since : Bool),
    sepFrom ok c a since l ↔
      (∃ p bad post, a = some p ∧ c p ≠ [] ∧ l = bad ++ p :: post ∧ (∀ q ∈ bad, ok q = false) ∧ ok p = true ∧ (since = true ∨ bad ≠ [])) ∨ Separated ok c l
  | [], a, since => by
    simp [sepFrom, Separated]
  | q :: l, a, since => by
    rw [sepFrom]
    cases hq : ok q with
    | false =>
      simp only [Bool.false_eq_true, if_false]
      rw [sepFrom_iff ok c l a true]
      constructor
      · rintro (⟨p, bad, post, h1, h2, rfl, h3, h4, _⟩ | ⟨p, pre, bad, post, rfl, h⟩)
        · refine Or.inl ⟨p, q :: bad, post, h1, h2, rfl, ?_, h4, Or.inr (by simp)⟩
          intro r hr
          rcases List.mem_cons.mp hr with rfl | hr
          · exact hq
          · exact h3 r hr
        · exact Or.inr ⟨p, q :: pre, bad, post, rfl, h⟩
      · rintro (⟨p, bad, post, h1, h2, h3, h4, h5, _⟩ | ⟨p, pre, bad, post, h0, h1, h2, h3, h4⟩)
        · cases bad with
          | nil =>
            simp only [List.nil_append, List.cons.injEq] at h3
            rw [← h3.1, hq] at h5
            simp at h5
          | cons r bad =>
            simp only [List.cons_append, List.cons.injEq] at h3
            exact Or.inl ⟨p, bad, post, h1, h2, h3.2, fun r hr => h4 r (List.mem_cons_of_mem _ hr), h5, Or.inl rfl⟩
        · cases pre with
          | nil =>
            simp only [List.nil_append, List.cons.injEq] at h0
            rw [← h0.1, hq] at h3
            simp at h3
          | cons r pre =>
            simp only [List.cons_append, List.cons.injEq] at h0
            exact Or.inr ⟨p, pre, bad, post, h0.2, h1, h2, h3, h4⟩
    | true =>
      simp only [if_true]
      rw [sepFrom_iff ok c l (some q) false]
      constructor
      · rintro (⟨h1, h2, h3⟩ | ⟨p, bad, post, h1, h2, rfl, h3, h4, h5⟩ | ⟨p, pre, bad, post, rfl, h⟩)
        · exact Or.inl ⟨q, [], l, h2, h3, rfl, by simp, hq, Or.inl h1⟩
        · simp only [Option.some.injEq] at h1
          subst h1
          exact Or.inr ⟨q, [], bad, post, rfl, by simpa using h5, h3, hq, h2⟩
        · exact Or.inr ⟨p, q :: pre, bad, post, rfl, h⟩
      · rintro (⟨p, bad, post, h1, h2, h3, h4, h5, h6⟩ | ⟨p, pre, bad, post, h0, h1, h2, h3, h4⟩)
        · cases bad with
          | nil =>
            simp only [List.nil_append, List.cons.injEq] at h3
            obtain ⟨rfl, rfl⟩ := h3
            exact Or.inl ⟨by simpa using h6, h1, h2⟩
          | cons r bad =>
            simp only [List.cons_append, List.cons.injEq] at h3
            have := h4 r (List.mem_cons_self ..)
            rw [← h3.1, hq] at this
            simp at this
        · cases pre with
          | nil =>
            simp only [List.nil_append, List.cons.injEq] at h0
            obtain ⟨rfl, rfl⟩ := h0
            exact Or.inr (Or.inl ⟨q, bad, post, rfl, h4, rfl, h2, h3, Or.inr h1⟩)
          | cons r pre =>
            simp only [List.cons_append, List.cons.injEq] at h0
            exact Or.inr (Or.inr ⟨p, pre, bad, post, h0.2, h1, h2, h3, h4⟩)

/-- **C06**, exactly, for schedulers that neither loop nor shuffle: the unreadable files leave no trace in what is delivered, whatever batches are requested, if and only if no
readable file with samples is listed twice with nothing but unreadable files in between. -/
theorem C06_exactly_partial (zero : V) (w : World V D Key) (cfg : Cfg) (hloop : cfg.loop = false) (hr : cfg.randomize = false) (fl : List String) (key : Key)
    (c : String → List (Sample V)) (hy : ∀ p ∈ fl, Yields w p (c p)) {fsh o1 o2 named} (hu : Uniform (fl.flatMap c) fsh o1 o2 named) (fuel : Nat) (hf : fl.length < fuel) :
    (∀ ns outs outs' s s', runBatches zero w cfg fuel ns (init w cfg fl key) = some (outs, s) →
        runBatches zero w cfg fuel ns (init w cfg (fl.filter (loadable w)) key) = some (outs', s') → outs.flatMap delivered = outs'.flatMap delivered) ↔
      ¬ Separated (loadable w) c fl := by
  have hbad : ∀ p ∈ fl, loadable w p = false → c p = [] := by
    intro p hp hl
    have h := hy p hp
    unfold Yields at h
    unfold loadable at hl
    cases hw : w.load p with
    | ok d => rw [hw] at hl; simp [Except.isOk, Except.toBool] at hl
    | error e => rw [hw] at h; exact h
  have hsep : sepFrom (loadable w) c none false fl ↔ Separated (loadable w) c fl := by
    rw [sepFrom_iff]
    simp
  have hcmp := compare (loadable w) c fl none none false hbad (by simp) (by simp)
  rw [hsep] at hcmp
  have hsub : ∀ p ∈ fl.filter (loadable w), p ∈ fl := fun p hp => (List.mem_filter.mp hp).1
  have hu' : Uniform ((fl.filter (loadable w)).flatMap c) fsh o1 o2 named := by
    have hm : ∀ x ∈ (fl.filter (loadable w)).flatMap c, x ∈ fl.flatMap c := by
      intro x hx
      obtain ⟨p, hp, hx⟩ := List.mem_flatMap.mp hx
      exact List.mem_flatMap.mpr ⟨p, hsub p hp, hx⟩
    exact ⟨hu.flow_rank, hu.i1_rank, hu.i2_rank, fun x hx => hu.flow x (hm x hx), fun x hx => hu.images1 x (hm x hx), fun x hx => hu.images2 x (hm x hx),
      fun x hx => hu.files x (hm x hx)⟩
  have hpass : ∀ l : List String, passOrder w cfg l key 0 = l := fun l => by simp [passOrder, hr]
  have hrun : ∀ ns, ∃ outs s, runBatches zero w cfg fuel ns (init w cfg fl key) = some (outs, s) ∧
      outs.flatMap delivered = ((after c none fl).take ns.sum).map Sample.row := by
    intro ns
    have h := C01_delivered_exactly zero w cfg hloop (by simp [hr]) fl key c hy hu ns fuel hf
    rwa [hpass] at h
  have hrun' : ∀ ns, ∃ outs s, runBatches zero w cfg fuel ns (init w cfg (fl.filter (loadable w)) key) = some (outs, s) ∧
      outs.flatMap delivered = ((after c none (fl.filter (loadable w))).take ns.sum).map Sample.row := by
    intro ns
    have h := C01_delivered_exactly zero w cfg hloop (by simp [hr]) (fl.filter (loadable w)) key c (fun p hp => hy p (hsub p hp)) hu' ns fuel
      (lt_of_le_of_lt (List.length_filter_le _ _) hf)
    rwa [hpass] at h
  constructor
  · intro h hs
    have hlt := hcmp.2 hs
    obtain ⟨outs, s, e1, e2⟩ := hrun [(after c none fl).length]
    obtain ⟨outs', s', e3, e4⟩ := hrun' [(after c none fl).length]
    have := congrArg List.length (h _ _ _ _ _ e1 e3)
    rw [e2, e4] at this
    simp only [List.sum_cons, List.sum_nil, Nat.add_zero, List.length_map, List.length_take] at this
    omega
  · intro hs ns outs outs' s s' h1 h2
    obtain ⟨o, t, e1, e2⟩ := hrun ns
    obtain ⟨o', t', e3, e4⟩ := hrun' ns
    rw [h1] at e1
    rw [h2] at e3
    simp only [Option.some.injEq, Prod.mk.injEq] at e1 e3
    rw [e1.1, e3.1, e2, e4, hcmp.1 hs]

/-- **C06** for unshuffled lists, looping or not, in which no readable file with samples is listed twice with nothing but unreadable files in between: the outcomes of any
history of requests are those for the list without the unreadable files. Missing: lists with such files (then the claim is false for schedulers that do not loop,
`C06_exactly_partial`), and shuffled lists. -/
theorem C06_unseparated_partial (zero : V) (w : World V D Key) (cfg : Cfg) (hr : cfg.randomize = false)
    (fl : List String) (key : Key) (c : String → List (Sample V)) (hy : ∀ p ∈ fl, Yields w p (c p))
    (hsep : ¬ Separated (loadable w) c fl)
    (hne : cfg.loop = true → ∃ p ∈ fl, c p ≠ []) (ns : List Nat) (hpos : ∀ n ∈ ns, 0 < n)
    (fuel : Nat) (hf : 2 * fl.length < fuel) :
    ∃ outs s1 s2, runBatches zero w cfg fuel ns (init w cfg fl key) = some (outs, s1) ∧
      runBatches zero w cfg fuel ns (init w cfg (fl.filter (loadable w)) key) = some (outs, s2) := by
  -- contents, made empty outside the list
  let c' : String → List (Sample V) := fun p => if loadable w p then c p else []
  have hyc : ∀ p ∈ fl, Yields w p (c' p) := by
    intro p hp
    have h := hy p hp
    by_cases hl : loadable w p = true
    · simp only [c', if_pos hl]; exact h
    · simp only [c', if_neg hl]
      unfold Yields
      unfold loadable at hl
      cases hw : w.load p with
      | ok d => rw [hw] at hl; simp [Except.isOk, Except.toBool] at hl
      | error e => rfl
  have hbad : ∀ p, loadable w p = false → c' p = [] := fun p hp => by simp [c', hp]
  have hfl : ∀ l : List String, (init w cfg l key : St D Key).fileList = l := fun l => by simp [init, shuffle, hr]
  have hsub : ∀ p ∈ fl.filter (loadable w), p ∈ fl := fun p hp => (List.mem_filter.mp hp).1
  have hi1 : Inv w c' (init w cfg fl key : St D Key) := inv_fresh (by simpa [hfl, init, shuffle, hr] using hyc)
  have hi2 : Inv w c' (init w cfg (fl.filter (loadable w)) key : St D Key) :=
    inv_fresh (fun p hp => hyc p (hsub p (by simpa [shuffle, hr] using hp)))
  have hs1 : streamAfter c' none fl = streamAfter c' none (fl.filter (loadable w)) := by
    rw [streamAfter_none, streamAfter_none]
    refine (compare (loadable w) c' fl none none false (fun p _ => hbad p) (by simp) (by simp)).1 ?_
    rw [sepFrom_iff]
    rintro (⟨p, _, _, h, _⟩ | ⟨p, pre, bad, post, h0, h1, h2, h3, h4⟩)
    · simp at h
    · exact hsep ⟨p, pre, bad, post, h0, h1, h2, h3, by simpa [c', h3] using h4⟩
  have hll : (fl.filter (loadable w)).length ≤ fl.length := List.length_filter_le _ _
  cases hloop : cfg.loop with
  | false =>
    obtain ⟨s1, _, _, _, _, h1⟩ := runBatches_nonloop zero hloop ns _ hi1
    obtain ⟨s2, _, _, _, _, h2⟩ := runBatches_nonloop zero hloop ns _ hi2
    have e1 : rem c' (init w cfg fl key : St D Key) = rem c' (init w cfg (fl.filter (loadable w)) key : St D Key) := by
      rw [rem_fresh _ rfl rfl, rem_fresh _ rfl rfl, hfl, hfl, hs1]
    refine ⟨_, s1, s2, h1 fuel (by rw [hfl]; omega), ?_⟩
    rw [h2 fuel (by rw [hfl]; omega), e1]
  | true =>
    have hp : cfg.randomize = true → PermOK w := by simp [hr]
    obtain ⟨p0, hp0, hc0⟩ := hne hloop
    have hl0 : loadable w p0 = true := by
      by_contra hl
      have h := hy p0 hp0
      unfold Yields at h
      unfold loadable at hl
      cases hw : w.load p0 with
      | ok d => rw [hw] at hl; simp [Except.isOk, Except.toBool] at hl
      | error e => rw [hw] at h; exact hc0 h
    have hc0' : c' p0 ≠ [] := by simpa [c', hl0] using hc0
    obtain ⟨xs1, s1, j1, hx1, _, _, hst1, hrun1⟩ := runBatches_loop zero hloop hp ns _ hpos hi1 ⟨p0, by rw [hfl]; exact hp0, hc0'⟩
    obtain ⟨xs2, s2, j2, hx2, _, _, hst2, hrun2⟩ := runBatches_loop zero hloop hp ns _ hpos hi2
      ⟨p0, by rw [hfl]; exact List.mem_filter.mpr ⟨hp0, hl0⟩, hc0'⟩
    have e : ∀ K, loopStream w cfg c' (init w cfg fl key : St D Key) K =
        loopStream w cfg c' (init w cfg (fl.filter (loadable w)) key : St D Key) K := by
      intro K
      rw [loopStream_init, loopStream_init]
      simp only [shuffles_order, hr, Bool.false_eq_true, if_false, hs1]
    have hxs : xs1 = xs2 := by
      have a := hst1 j2
      have b := hst2 j1
      rw [e, Nat.add_comm j2 j1, b] at a
      exact (List.append_inj_left a (by rw [hx1, hx2])).symm
    refine ⟨_, s1, s2, hrun1 fuel (by rw [hfl]; omega), ?_⟩
    rw [hrun2 fuel (by rw [hfl]; omega), hxs]

/-- Both sides occur: "b", unreadable "x", "b" again; and the same with the readable "a" in between. -/
example : Separated (loadable Demo.world) Demo.contents ["b", "x", "b"] ∧ ¬ Separated (loadable Demo.world) Demo.contents ["b", "x", "a", "b", "b"] := by
  constructor
  · exact ⟨"b", [], ["x"], [], rfl, by simp, by decide, by decide, by decide⟩
  · have h : ¬ sepFrom (loadable Demo.world) Demo.contents none false ["b", "x", "a", "b", "b"] := by
      have h1 : loadable Demo.world "b" = true := by decide
      have h2 : loadable Demo.world "x" = false := by decide
      have h3 : loadable Demo.world "a" = true := by decide
      simp [sepFrom, h1, h2, h3]
    rw [sepFrom_iff] at h
    exact fun hs => h (Or.inr hs)

end Verif.Base
