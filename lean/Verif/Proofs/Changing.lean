import Verif.Spec.Changing
import Verif.Props.Base
import Mathlib.Data.List.Nodup
/-!
# Lemmas about files that change
-/

namespace Verif.Changing
open Verif Base
variable {V D Key : Type}

/-- Where the scheduler is in the list when it has opened `m` files: before file `m`, or in file `m - 1`. -/
structure At (order : List String) (s : St D Key) (m : Nat) : Prop where
  list : s.fileList = order
  le : m ≤ order.length
  pos : (s.index = m ∧ ∀ q d, s.cached = some (q, d) → q ∈ order.take m) ∨ (m = s.index + 1 ∧ ∃ p d, order[s.index]? = some p ∧ s.cached = some (p, d))

theorem take_snoc {order : List String} {m : Nat} {p : String} (h : order[m]? = some p) : order.take m ++ [p] = order.take (m + 1) := by
  rw [List.take_add_one, h]; rfl

theorem at_open {order : List String} (hn : order.Nodup) {m : Nat} {p : String} (h : order[m]? = some p) : p ∉ order.take m ∧ order.idxOf p = m := by
  obtain ⟨hm, rfl⟩ := List.getElem?_eq_some_iff.1 h
  refine ⟨fun hmem => ?_, hn.idxOf_getElem m hm⟩
  obtain ⟨j, hj, e⟩ := List.mem_take_iff_getElem.1 hmem
  have := hn.getElem_inj_iff.1 e
  omega

theorem take_length {order : List String} {s : St D Key} {m : Nat} (h : At order s m) : (order.take m).length = m := by
  rw [List.length_take]; exact min_eq_left h.le

/-- Before file `m` a file is opened. -/
theorem body_open {order : List String} (hn : order.Nodup) {s : St D Key} {m : Nat} (h : At order s m) (hm : s.index = m) {p : String} (hp : order[s.index]? = some p) :
    opens s = some p ∧ ∀ w' : Base.World V D Key, body w' s = match w'.load p with
          | .ok d' => takeSlice w' { s with cached := some (p, d'), sliceIdx := 0 } p d'
          | .error _ => .cont { s with cached := none, index := s.index + 1 } := by
  have hlist := h.list
  have hc : ∀ q d, s.cached = some (q, d) → q ∈ order.take m := by
    rcases h.pos with ⟨_, hc⟩ | ⟨h', _⟩
    · exact hc
    · omega
  obtain ⟨hnot, -⟩ := at_open hn (hm ▸ hp)
  unfold opens body
  rw [hlist, hp]
  cases hcc : s.cached with
  | none => exact ⟨rfl, fun _ => rfl⟩
  | some qd =>
    obtain ⟨q, d⟩ := qd
    have : q ≠ p := fun e => hnot (e ▸ hc q d hcc)
    simp only [if_neg this]
    exact ⟨trivial, fun _ => rfl⟩

/-- In file `m - 1` none is opened. -/
theorem body_in {order : List String} {s : St D Key} {m : Nat} (h : At order s m) {p : String} {d : D} (hp : order[s.index]? = some p) (hc : s.cached = some (p, d)) :
    opens s = none ∧ ∀ w' : Base.World V D Key, body w' s = takeSlice w' s p d := by
  unfold opens body
  rw [h.list, hp, hc]
  simp only [if_true]
  exact ⟨trivial, fun _ => trivial⟩

theorem takeSlice_at (w' : Base.World V D Key) {order : List String} {s : St D Key} {p : String} {d : D} (hl : s.fileList = order) (hp : order[s.index]? = some p)
    (hc : s.cached = some (p, d)) : At order (takeSlice w' s p d).state (s.index + 1) := by
  have hlt : s.index < order.length := (List.getElem?_eq_some_iff.1 hp).1
  have hin : p ∈ order.take (s.index + 1) := by rw [← take_snoc hp]; simp
  unfold takeSlice
  cases w'.slice p d s.sliceIdx with
  | ok x => exact ⟨hl, hlt, .inr ⟨rfl, p, d, hp, hc⟩⟩
  | ended =>
    refine ⟨hl, hlt, .inl ⟨rfl, fun q d' hq => ?_⟩⟩
    simp only [Step.state, hc, Option.some.injEq, Prod.mk.injEq] at hq
    rw [← hq.1]; exact hin
  | fail e => exact ⟨hl, hlt, .inr ⟨rfl, p, d, hp, hc⟩⟩

/-- The loop body, wherever the scheduler is. -/
theorem body_at {order : List String} (hn : order.Nodup) {s : St D Key} {m : Nat} (h : At order s m) (hi : s.index < order.length) (w' : Base.World V D Key) :
    order.take m ++ (opens s).toList = order.take (s.index + 1) ∧ m ≤ s.index + 1 ∧ At order (body w' s).state (s.index + 1) := by
  obtain ⟨p, hp⟩ : ∃ p, order[s.index]? = some p := ⟨_, List.getElem?_eq_getElem hi⟩
  rcases h.pos with ⟨hm, _⟩ | ⟨hm, p', d, hp', hc⟩
  · obtain ⟨ho, hb⟩ := body_open (V := V) hn h hm hp
    rw [ho, hb]
    subst hm
    refine ⟨take_snoc hp, by omega, ?_⟩
    cases w'.load p with
    | error e => exact ⟨h.list, hi, .inl ⟨rfl, by simp [Step.state]⟩⟩
    | ok d => exact takeSlice_at w' (s := { s with cached := some (p, d), sliceIdx := 0 }) h.list hp rfl
  · obtain ⟨ho, hb⟩ := body_in (V := V) h hp' hc
    rw [ho, hb]
    subst hm
    exact ⟨by simp, le_rfl, takeSlice_at w' h.list hp' hc⟩

/-- One pass of the loop, in a list without repetitions and without looping: the same as on the files as they are seen. -/
theorem iter_at {w : World V D Key} {c : Cfg} (hl : c.loop = false) {order : List String} (hn : order.Nodup) {s : St D Key} {m : Nat} (h : At order s m) :
    iter (w.now m) c s = iter (seen w order) c s ∧ ∃ m', m ≤ m' ∧ order.take m ++ (opensIn w c s).toList = order.take m' ∧
      At order (iter (seen w order) c s).state m' := by
  have hlist := h.list
  unfold iter opensIn
  by_cases hi : s.index < s.fileList.length
  · simp only [if_pos hi]
    obtain ⟨e1, e2, e3⟩ := body_at hn h (hlist ▸ hi) (seen w order)
    refine ⟨?_, s.index + 1, e2, e1, e3⟩
    obtain ⟨p, hp⟩ : ∃ p, order[s.index]? = some p := ⟨_, List.getElem?_eq_getElem (hlist ▸ hi)⟩
    rcases h.pos with ⟨hm, _⟩ | ⟨hm, p', d, hp', hc⟩
    · obtain ⟨_, hb⟩ := body_open (V := V) hn h hm hp
      subst hm
      have e : (seen w order).load p = (w.now s.index).load p := by show w.load (order.idxOf p) p = w.load s.index p; rw [(at_open hn hp).2]
      rw [hb, hb, e]
      rfl
    · obtain ⟨_, hb⟩ := body_in (V := V) h hp' hc
      rw [hb, hb]
      rfl
  · simp only [if_neg hi, hl, Bool.false_eq_true, if_false]
    exact ⟨trivial, m, le_rfl, by simp, h⟩

theorem getNext_at {w : World V D Key} {c : Cfg} (hl : c.loop = false) {order : List String} (hn : order.Nodup) : ∀ (fuel : Nat) (s : St D Key) (m : Nat), At order s m →
    (Base.getNext (seen w order) c fuel s = none ∧ getNext w c fuel s (order.take m) = none) ∨
    ∃ r s' m', Base.getNext (seen w order) c fuel s = some (r, s') ∧ getNext w c fuel s (order.take m) = some (r, s', order.take m') ∧ m ≤ m' ∧ At order s' m' := by
  intro fuel
  induction fuel with
  | zero => intro s m _; exact .inl ⟨rfl, rfl⟩
  | succ fuel ih =>
    intro s m h
    obtain ⟨e, m', hm, hlog, hat⟩ := iter_at (w := w) hl hn h
    simp only [Base.getNext, getNext, take_length h, e, hlog]
    cases hi : iter (seen w order) c s with
    | cont s' =>
      rw [hi] at hat
      rcases ih s' m' hat with h1 | ⟨r, s'', m'', h1, h2, h3, h4⟩
      · exact .inl h1
      · exact .inr ⟨r, s'', m'', h1, h2, hm.trans h3, h4⟩
    | ret x s' => rw [hi] at hat; exact .inr ⟨_, _, m', rfl, rfl, hm, hat⟩
    | stop s' => rw [hi] at hat; exact .inr ⟨_, _, m', rfl, rfl, hm, hat⟩
    | raise x s' => rw [hi] at hat; exact .inr ⟨_, _, m', rfl, rfl, hm, hat⟩

theorem collect_at {w : World V D Key} {c : Cfg} (hl : c.loop = false) {order : List String} (hn : order.Nodup) (fuel : Nat) : ∀ (n : Nat) (s : St D Key) (m : Nat), At order s m →
    (Base.collect (seen w order) c fuel n s = none ∧ collect w c fuel n s (order.take m) = none) ∨
    ∃ r s' m', Base.collect (seen w order) c fuel n s = some (r, s') ∧ collect w c fuel n s (order.take m) = some (r, s', order.take m') ∧ m ≤ m' ∧ At order s' m' := by
  intro n
  induction n with
  | zero => intro s m h; exact .inr ⟨_, s, m, rfl, rfl, le_rfl, h⟩
  | succ n ih =>
    intro s m h
    simp only [Base.collect, collect]
    rcases getNext_at (w := w) hl hn fuel s m h with ⟨h1, h2⟩ | ⟨r, s', m', h1, h2, h3, h4⟩
    · rw [h1, h2]; exact .inl ⟨rfl, rfl⟩
    · rw [h1, h2]
      cases r with
      | stop => exact .inr ⟨_, s', m', rfl, rfl, h3, h4⟩
      | raise e =>
        by_cases he : e = .stopIteration
        · simp only [if_pos he]; exact .inr ⟨_, s', m', rfl, rfl, h3, h4⟩
        · simp only [if_neg he]; exact .inr ⟨_, s', m', rfl, rfl, h3, h4⟩
      | ret x =>
        rcases ih s' m' h4 with ⟨g1, g2⟩ | ⟨r, s'', m'', g1, g2, g3, g4⟩
        · simp only [g1, g2]; exact .inl ⟨trivial, trivial⟩
        · simp only [g1, g2]
          cases r with
          | ok xs => exact .inr ⟨_, s'', m'', rfl, rfl, h3.trans g3, g4⟩
          | error e => exact .inr ⟨_, s'', m'', rfl, rfl, h3.trans g3, g4⟩

theorem getBatch_at {w : World V D Key} {c : Cfg} (hl : c.loop = false) {order : List String} (hn : order.Nodup) (zero : V) (fuel n : Nat) (s : St D Key) (m : Nat) (h : At order s m) :
    (Base.getBatch zero (seen w order) c fuel n s = none ∧ getBatch zero w c fuel n s (order.take m) = none) ∨
    ∃ r s' m', Base.getBatch zero (seen w order) c fuel n s = some (r, s') ∧ getBatch zero w c fuel n s (order.take m) = some (r, s', order.take m') ∧ m ≤ m' ∧ At order s' m' := by
  unfold Base.getBatch getBatch
  rcases collect_at (w := w) hl hn fuel n s m h with ⟨h1, h2⟩ | ⟨r, s', m', h1, h2, h3, h4⟩
  · rw [h1, h2]; exact .inl ⟨rfl, rfl⟩
  · rw [h1, h2]
    cases r with
    | error e => exact .inr ⟨_, s', m', rfl, rfl, h3, h4⟩
    | ok batch =>
      by_cases hb : batch.isEmpty = true
      · simp only [if_pos hb, hl, Bool.false_eq_true, if_false]; exact .inr ⟨_, s', m', rfl, rfl, h3, h4⟩
      · simp only [if_neg hb]; exact .inr ⟨_, s', m', rfl, rfl, h3, h4⟩

theorem runBatches_at {w : World V D Key} {c : Cfg} (hl : c.loop = false) {order : List String} (hn : order.Nodup) (zero : V) (fuel : Nat) : ∀ (ns : List Nat) (s : St D Key) (m : Nat), At order s m →
    (Base.runBatches zero (seen w order) c fuel ns s = none ∧ runBatches zero w c fuel ns s (order.take m) = none) ∨
    ∃ r s' m', Base.runBatches zero (seen w order) c fuel ns s = some (r, s') ∧ runBatches zero w c fuel ns s (order.take m) = some (r, s', order.take m') ∧ m ≤ m' ∧ At order s' m' := by
  intro ns
  induction ns with
  | nil => intro s m h; exact .inr ⟨_, s, m, rfl, rfl, le_rfl, h⟩
  | cons n ns ih =>
    intro s m h
    simp only [Base.runBatches, runBatches]
    rcases getBatch_at (w := w) hl hn zero fuel n s m h with ⟨h1, h2⟩ | ⟨r, s', m', h1, h2, h3, h4⟩
    · rw [h1, h2]; exact .inl ⟨rfl, rfl⟩
    · rw [h1, h2]
      rcases ih s' m' h4 with ⟨g1, g2⟩ | ⟨r, s'', m'', g1, g2, g3, g4⟩
      · simp only [g1, g2]; exact .inl ⟨trivial, trivial⟩
      · simp only [g1, g2]; exact .inr ⟨_, s'', m'', rfl, rfl, h3.trans g3, g4⟩

/-! ### How far the scheduler has read -/

/-- The number of samples in the first `j` files. -/
def before (c : String → List (Sample V)) (order : List String) (j : Nat) : Nat := ((order.take j).flatMap c).length

theorem before_succ (c : String → List (Sample V)) {order : List String} {j : Nat} {p : String} (hp : order[j]? = some p) : before c order (j + 1) = before c order j + (c p).length := by
  unfold before
  rw [← take_snoc hp]
  simp

/-- In addition to `At`: `k` samples have been delivered. -/
structure Read (w' : Base.World V D Key) (c : String → List (Sample V)) (order : List String) (s : St D Key) (m k : Nat) : Prop where
  at_ : At order s m
  pos : (s.index = m ∧ before c order m = k) ∨
    (m = s.index + 1 ∧ ∃ p d, order[s.index]? = some p ∧ s.cached = some (p, d) ∧ w'.load p = .ok d ∧ s.sliceIdx ≤ (c p).length ∧ before c order s.index + s.sliceIdx = k)

theorem Read.last {w' : Base.World V D Key} {c : String → List (Sample V)} {order : List String} {s : St D Key} {m k : Nat} (h : Read w' c order s m k) :
    m = 0 ∨ before c order (m - 1) ≤ k := by
  rcases h.pos with ⟨_, e⟩ | ⟨hm, _, _, _, _, _, _, e⟩
  · cases m with
    | zero => exact .inl rfl
    | succ m =>
      have hlt : m < order.length := h.at_.le
      rw [before_succ c (List.getElem?_eq_getElem hlt)] at e
      exact .inr (by simp; omega)
  · subst hm
    exact .inr (by simp; omega)

/-- One pass of the loop, when the files contribute `c`. -/
theorem iter_read {w' : Base.World V D Key} {c : String → List (Sample V)} {cfg : Cfg} (hl : cfg.loop = false) {order : List String} (hn : order.Nodup)
    (hy : ∀ p ∈ order, Yields w' p (c p)) {s : St D Key} {m k : Nat} (h : Read w' c order s m k) :
    (∃ s' m', iter w' cfg s = .cont s' ∧ At order s' m' ∧ Read w' c order s' m' k) ∨
    (∃ x s' m', iter w' cfg s = .ret x s' ∧ At order s' m' ∧ Read w' c order s' m' (k + 1) ∧ before c order (m' - 1) ≤ k) ∨ iter w' cfg s = .stop s := by
  have hlist := h.at_.list
  unfold iter
  by_cases hi : s.index < s.fileList.length
  · simp only [if_pos hi]
    obtain ⟨p, hp⟩ : ∃ p, order[s.index]? = some p := ⟨_, List.getElem?_eq_getElem (hlist ▸ hi)⟩
    have hyp := hy p (List.mem_of_getElem? hp)
    have hslice (s1 : St D Key) (d : D) (hs1 : s1.fileList = order) (hs2 : s1.index = s.index) (hs3 : s1.cached = some (p, d)) (hd : w'.load p = .ok d)
        (hle : s1.sliceIdx ≤ (c p).length) (hk : before c order s.index + s1.sliceIdx = k) :
        (∃ s' m', takeSlice w' s1 p d = .cont s' ∧ At order s' m' ∧ Read w' c order s' m' k) ∨
        (∃ x s' m', takeSlice w' s1 p d = .ret x s' ∧ At order s' m' ∧ Read w' c order s' m' (k + 1) ∧ before c order (m' - 1) ≤ k) := by
      have hat := takeSlice_at w' hs1 (hs2 ▸ hp) hs3
      obtain ⟨y1, y2⟩ := yields_ok hyp hd
      rcases Nat.lt_or_ge s1.sliceIdx (c p).length with hlt | hge
      · right
        have e : takeSlice w' s1 p d = .ret ((c p)[s1.sliceIdx]) { s1 with sliceIdx := s1.sliceIdx + 1 } := by unfold takeSlice; rw [y1 _ hlt]
        rw [e] at hat ⊢
        refine ⟨_, _, _, rfl, hat, ⟨hat, .inr ⟨rfl, p, d, hs2 ▸ hp, hs3, hd, hlt, ?_⟩⟩, ?_⟩
        · show before c order s1.index + (s1.sliceIdx + 1) = k + 1
          rw [hs2]; omega
        · simp only [Nat.add_sub_cancel, hs2]; omega
      · left
        have heq : s1.sliceIdx = (c p).length := Nat.le_antisymm hle hge
        have e : takeSlice w' s1 p d = .cont { s1 with index := s1.index + 1 } := by unfold takeSlice; rw [heq, y2]
        rw [e] at hat ⊢
        refine ⟨_, _, rfl, hat, ⟨hat, .inl ⟨rfl, ?_⟩⟩⟩
        rw [hs2, before_succ c hp]; omega
    rcases h.pos with ⟨hm, hk⟩ | ⟨hm, p', d, hp', hc, hd, hle, hk⟩
    · obtain ⟨_, hb⟩ := body_open (V := V) hn h.at_ hm hp
      rw [hb]
      subst hm
      cases hd : w'.load p with
      | error e =>
        left
        refine ⟨_, s.index + 1, rfl, ?_, ?_, .inl ⟨rfl, ?_⟩⟩
        · exact ⟨hlist, hlist ▸ hi, .inl ⟨rfl, by simp⟩⟩
        · exact ⟨hlist, hlist ▸ hi, .inl ⟨rfl, by simp⟩⟩
        · rw [before_succ c hp, yields_err hyp hd]; simpa using hk
      | ok d =>
        rcases hslice { s with cached := some (p, d), sliceIdx := 0 } d hlist rfl rfl hd (Nat.zero_le _) (by simpa using hk) with h1 | h1
        · exact .inl h1
        · exact .inr (.inl h1)
    · rw [hp] at hp'
      simp only [Option.some.injEq] at hp'
      subst hp'
      obtain ⟨_, hb⟩ := body_in (V := V) h.at_ hp hc
      rw [hb]
      rcases hslice s d hlist rfl hc hd hle hk with h1 | h1
      · exact .inl h1
      · exact .inr (.inl h1)
  · simp only [if_neg hi, hl, Bool.false_eq_true, if_false]
    exact .inr (.inr trivial)

/-- How many files have been opened is determined by where the scheduler is, up to one. -/
theorem At.unique {order : List String} (hn : order.Nodup) {s : St D Key} {m m' : Nat} (h : At order s m) (h' : At order s m') : m = m' := by
  have key {m m' : Nat} (h : At order s m) (h1 : s.index = m) (h2 : m' = s.index + 1 ∧ ∃ p d, order[s.index]? = some p ∧ s.cached = some (p, d)) : False := by
    obtain ⟨_, p, d, hp, hc⟩ := h2
    rcases h.pos with ⟨_, e⟩ | ⟨e, _⟩
    · exact (at_open hn (h1 ▸ hp)).1 (e p d hc)
    · omega
  rcases h.pos with ⟨e, _⟩ | e <;> rcases h'.pos with ⟨e', _⟩ | e'
  · omega
  · exact (key h e e').elim
  · exact (key h' e' e).elim
  · omega

end Verif.Changing
