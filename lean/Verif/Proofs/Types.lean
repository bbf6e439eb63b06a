import Verif.Spec.Types
import Mathlib.Tactic.Linarith
/-!
# Auxiliary facts about the data classes
-/

namespace Verif.Types
open Verif Spec

theorem Num.le_iff (x y : Num) : x.le y = true ↔ Le x y := by
  cases x <;> cases y <;> simp [Num.le, Le]

theorem Num.lt_iff (x y : Num) : x.lt y = true ↔ Lt x y := by
  cases x <;> cases y <;> simp [Num.lt, Lt, Le, lt_iff_le_and_ne]

theorem Spec.Le.left_ne {x y : Num} (h : Le x y) : x ≠ .nan := by cases x <;> cases y <;> simp_all [Le]
theorem Spec.Le.right_ne {x y : Num} (h : Le x y) : y ≠ .nan := by cases x <;> cases y <;> simp_all [Le]

theorem require_ok {c : Except Exc Bool} {r : Except Exc Unit} : require c r = .ok () ↔ c = .ok true ∧ r = .ok () := by
  unfold require
  split <;> simp

theorem requirePairs_ok {v : Val} {f : List (Val × Val) → Except Exc Bool} {r : Except Exc Unit} :
    requirePairs v f r = .ok () ↔ (∃ l, pairs v = some l ∧ f l = .ok true) ∧ r = .ok () := by
  unfold requirePairs
  split
  · rename_i h; simp [h]
  · rename_i l h; simp [h, require_ok]

theorem andE_true {a b : Except Exc Bool} : andE a b = .ok true ↔ a = .ok true ∧ b = .ok true := by
  unfold andE
  split <;> simp

theorem allE_true {α : Type} {p : α → Except Exc Bool} {l : List α} :
    allE p l = .ok true ↔ ∀ x ∈ l, p x = .ok true := by
  induction l with
  | nil => simp [allE]
  | cons a l ih => simp [allE, andE_true, ih]

theorem posInt_iff (v : Val) : posInt v = true ↔ PositiveInt v := by
  unfold posInt PositiveInt
  cases v.asInt <;> simp

theorem nonnegNum_iff (v : Val) : nonnegNum v = true ↔ NonNegative v := by
  unfold nonnegNum NonNegative IsNumber
  cases h : v.asNum with
  | none => simp
  | some x =>
    simp only [Num.le_iff]
    constructor
    · intro h'; exact ⟨x, ⟨rfl, h'.right_ne⟩, h'⟩
    · rintro ⟨y, ⟨h1, _⟩, h2⟩; cases h1; exact h2

theorem pairOf_iff {p : Val → Bool} {P : Val → Prop} (hp : ∀ v, p v = true ↔ P v) (v : Val) :
    pairOf p v = true ↔ TupleOfTwo P v := by
  unfold pairOf TupleOfTwo
  split
  · rename_i a b
    simp only [Bool.and_eq_true, hp]
    constructor
    · rintro ⟨h1, h2⟩; exact ⟨a, b, rfl, h1, h2⟩
    · rintro ⟨a', b', he, h1, h2⟩
      simp only [Val.tuple.injEq, List.cons.injEq, and_true] at he
      obtain ⟨rfl, rfl⟩ := he
      exact ⟨h1, h2⟩
  · rename_i h
    constructor
    · intro h'; cases h'
    · rintro ⟨a, b, he, _⟩; exact absurd he (h a b)

theorem probability_iff (v : Val) : probability v = .ok true ↔ Probability v := by
  unfold probability Probability IsNumber Val.leNum Val.numLe
  cases h : v.asNum with
  | none => simp [andE]
  | some x =>
    simp only [andE_true, Except.ok.injEq, Num.le_iff]
    constructor
    · rintro ⟨h1, h2⟩; exact ⟨x, ⟨rfl, h1.right_ne⟩, h1, h2⟩
    · rintro ⟨y, ⟨h1, _⟩, h2, h3⟩; cases h1; exact ⟨h2, h3⟩

/-- Under the first check the second one says the pair is in order. -/
theorem inverted_iff {v : Val} (hv : TupleOfTwo NonNegative v) : (!inverted v) = true ↔ Ordered v := by
  obtain ⟨a, b, rfl, ⟨x, hx, hx0⟩, ⟨y, hy, hy0⟩⟩ := hv
  simp only [inverted, hx.1, hy.1]
  have hlt : y.lt x = false ↔ Le x y := by
    rw [← Bool.not_eq_true, Num.lt_iff]
    have := hx.2; have := hy.2
    cases x <;> cases y <;> simp_all [Lt, Le]
    rename_i p q
    constructor
    · intro h; by_contra hn; exact absurd (h (by linarith)) (by intro h'; exact hn (le_of_eq h'.symm))
    · intro h h'; exact le_antisymm h' h
  rw [Bool.not_eq_true']
  rw [hlt]
  constructor
  · intro h; exact ⟨a, b, x, y, rfl, hx, hy, h⟩
  · rintro ⟨a', b', x', y', he, h1, h2, h3⟩
    simp only [Val.tuple.injEq, List.cons.injEq, and_true] at he
    obtain ⟨rfl, rfl⟩ := he
    have : x = x' := by have := h1.1; rw [hx.1] at this; exact Option.some.inj this
    have : y = y' := by have := h2.1; rw [hy.1] at this; exact Option.some.inj this
    subst_vars; exact h3

theorem mapM_pairs {f : Val → Option (Val × Val)} (l : List Val) (q : List (Val × Val)) :
    l.mapM f = some q ↔ List.Forall₂ (fun v p => f v = some p) l q := by
  induction l generalizing q with
  | nil =>
    constructor
    · intro h; simp at h; subst h; exact .nil
    · intro h; cases h; simp
  | cons v l ih =>
    rw [List.mapM_cons]
    cases hf : f v with
    | none =>
      constructor
      · intro h; simp at h
      · intro h; cases h; simp_all
    | some p =>
      cases hl : l.mapM f with
      | none =>
        constructor
        · intro h; simp at h
        · intro h
          cases h with
          | cons h1 h2 => rw [(ih _).2 h2] at hl; cases hl
      | some r =>
        constructor
        · intro h
          simp at h
          subst h
          exact .cons hf ((ih r).1 hl)
        · intro h
          cases h with
          | cons h1 h2 =>
            have := (ih _).2 h2
            rw [hl] at this; cases this
            rw [hf] at h1; cases h1
            simp

/-- What `pairs` accepts. -/
theorem pairs_some {v : Val} {q : List (Val × Val)} :
    pairs v = some q ↔ q ≠ [] ∧ v = .list (q.map (fun p => .tuple [p.1, p.2])) := by
  unfold pairs
  split
  · rename_i l
    by_cases hl : l.isEmpty
    · rw [if_pos hl]
      have : l = [] := by simpa using hl
      subst this
      simp only [reduceCtorEq, Val.list.injEq, false_iff, not_and]
      intro hq h
      exact hq (List.map_eq_nil_iff.1 h.symm)
    · rw [if_neg hl, mapM_pairs]
      constructor
      · intro h
        constructor
        · rintro rfl; cases h; simp at hl
        · rw [Val.list.injEq]
          clear hl
          induction h with
          | nil => rfl
          | cons h1 _ ih =>
            rename_i a b l q _
            rw [List.map_cons, ← ih]
            have : a = .tuple [b.1, b.2] := by
              split at h1
              · simp at h1; subst h1; rfl
              · cases h1
            rw [this]
      · rintro ⟨hq, h⟩
        rw [Val.list.injEq] at h
        subst h
        clear hl hq
        induction q with
        | nil => exact .nil
        | cons p q ih => exact .cons rfl ih
  · rename_i h
    constructor
    · intro h'; cases h'
    · rintro ⟨_, h'⟩; exact absurd h' (h _)

theorem le_true {v w : Val} : Val.le v w = .ok true ↔ ∃ x y, IsNumber v x ∧ IsNumber w y ∧ Le x y := by
  unfold Val.le Val.leNum IsNumber
  cases hv : v.asNum with
  | none => simp
  | some x =>
    cases hw : w.asNum with
    | none => simp
    | some y =>
      simp only [Except.ok.injEq, Num.le_iff]
      constructor
      · intro h; exact ⟨x, y, ⟨rfl, h.left_ne⟩, ⟨rfl, h.right_ne⟩, h⟩
      · rintro ⟨_, _, ⟨h1, _⟩, ⟨h2, _⟩, h⟩; cases h1; cases h2; exact h

theorem ltNum_true {a : Num} {v : Val} : Val.ltNum a v = .ok true ↔ ∃ x, IsNumber v x ∧ Lt a x := by
  unfold Val.ltNum IsNumber
  cases hv : v.asNum with
  | none => simp
  | some x =>
    simp only [Except.ok.injEq, Num.lt_iff]
    constructor
    · intro h; exact ⟨x, ⟨rfl, h.1.right_ne⟩, h⟩
    · rintro ⟨_, ⟨h1, _⟩, h⟩; cases h1; exact h

theorem numLt_true {a : Num} {v : Val} : Val.numLt v a = .ok true ↔ ∃ x, IsNumber v x ∧ Lt x a := by
  unfold Val.numLt IsNumber
  cases hv : v.asNum with
  | none => simp
  | some x =>
    simp only [Except.ok.injEq, Num.lt_iff]
    constructor
    · intro h; exact ⟨x, ⟨rfl, h.1.left_ne⟩, h⟩
    · rintro ⟨_, ⟨h1, _⟩, h⟩; cases h1; exact h

theorem Spec.IsNumber.unique {v : Val} {x y : Num} (h1 : IsNumber v x) (h2 : IsNumber v y) : x = y :=
  Option.some.inj (h1.1.symm.trans h2.1)

theorem ranges_iff {check : Val × Val → Except Exc Bool} {P : Num → Num → Prop}
    (hc : ∀ p, check p = .ok true ↔ ∃ x y, IsNumber p.1 x ∧ IsNumber p.2 y ∧ P x y) (v : Val) :
    (∃ l, pairs v = some l ∧ allE check l = .ok true) ↔ RangesWith P v := by
  constructor
  · rintro ⟨q, hq, hall⟩
    obtain ⟨hne, rfl⟩ := pairs_some.1 hq
    rw [allE_true] at hall
    refine ⟨_, rfl, by simpa using hne, ?_⟩
    intro r hr
    obtain ⟨p, hp, rfl⟩ := List.mem_map.1 hr
    obtain ⟨x, y, h1, h2, h3⟩ := (hc p).1 (hall p hp)
    exact ⟨p.1, p.2, x, y, rfl, h1, h2, h3⟩
  · rintro ⟨l, rfl, hne, hall⟩
    have : ∃ q : List (Val × Val), l = q.map (fun p => .tuple [p.1, p.2]) ∧ ∀ p ∈ q, check p = .ok true := by
      clear hne
      induction l with
      | nil => exact ⟨[], rfl, by simp⟩
      | cons r l ih =>
        obtain ⟨q, rfl, hq⟩ := ih (fun r' hr' => hall r' (List.mem_cons_of_mem _ hr'))
        obtain ⟨a, b, x, y, rfl, h1, h2, h3⟩ := hall r List.mem_cons_self
        refine ⟨(a, b) :: q, rfl, ?_⟩
        intro p hp
        rcases List.mem_cons.1 hp with rfl | hp
        · exact (hc (a, b)).2 ⟨x, y, h1, h2, h3⟩
        · exact hq p hp
    obtain ⟨q, rfl, hq⟩ := this
    refine ⟨q, pairs_some.2 ⟨by rintro rfl; exact hne rfl, rfl⟩, allE_true.2 hq⟩

theorem posRanges_iff (v : Val) :
    (∃ l, pairs v = some l ∧ posRanges l = .ok true) ↔ RangesWith (fun x y => Lt (.fin 0) x ∧ Le x y) v := by
  apply ranges_iff
  rintro ⟨a, b⟩
  simp only [andE_true, ltNum_true, le_true]
  constructor
  · rintro ⟨⟨x, h1, h2⟩, x', y, h3, h4, h5⟩
    cases h1.unique h3
    exact ⟨x, y, h3, h4, h2, h5⟩
  · rintro ⟨x, y, h1, h2, h3, h4⟩
    exact ⟨⟨x, h1, h3⟩, x, y, h1, h2, h4⟩

theorem rhoOK_iff (v : Val) : (∃ l, pairs v = some l ∧ rhoOK l = .ok true) ↔
    RangesWith (fun x y => Lt (.fin (-1)) x ∧ Le x y ∧ Lt y (.fin 1)) v := by
  apply ranges_iff
  rintro ⟨a, b⟩
  simp only [andE_true, ltNum_true, le_true, numLt_true]
  constructor
  · rintro ⟨⟨x, h1, h2⟩, ⟨x', y, h3, h4, h5⟩, y', h6, h7⟩
    cases h1.unique h3; cases h4.unique h6
    exact ⟨x, y, h3, h4, h2, h5, h7⟩
  · rintro ⟨x, y, h1, h2, h3, h4, h5⟩
    exact ⟨⟨x, h1, h3⟩, ⟨x, y, h1, h2, h4⟩, y, h2, h5⟩

theorem notNegNum_iff (v : Val) : notNegNum v = true ↔ NonNegative v ∨ IsNaN v := by
  unfold notNegNum NonNegative IsNumber IsNaN
  cases h : v.asNum with
  | none => simp
  | some x =>
    cases x <;> simp [Num.lt, Le]

theorem notNonposNum_iff (v : Val) : notNonposNum v = true ↔ Positive v ∨ IsNaN v := by
  unfold notNonposNum Positive IsNumber IsNaN
  cases h : v.asNum with
  | none => simp
  | some x =>
    cases x <;> simp [Num.le, Lt, Le, lt_iff_le_and_ne]

/-- When the constructor succeeds. -/
theorem validate_ok_iff (s : Types.Spec) : s.validate = .ok () ↔
    MostlyValid s ∧ (NonNegative s.noiseGaussianStd ∨ IsNaN s.noiseGaussianStd) ∧ (Positive s.dt ∨ IsNaN s.dt) := by
  unfold Types.Spec.validate
  simp only [require_ok, requirePairs_ok, Except.ok.injEq, posInt_iff, pairOf_iff posInt_iff, pairOf_iff nonnegNum_iff,
    probability_iff, posRanges_iff, rhoOK_iff, nonnegNum_iff, notNegNum_iff, notNonposNum_iff]
  constructor
  · rintro ⟨h1, h2, h3, h4, -, h5, h6, h7, h8, h9, h10, h11, h12, h13, h14, h15, h16, h17, -⟩
    exact ⟨⟨h1, h2, h5, h6, (inverted_iff h6).1 h7, h3, h4, h8, h11, h9, h12, h10, h13, h14, h15⟩, h16, h17⟩
  · rintro ⟨h, h16, h17⟩
    exact ⟨h.batchSize, h.imageShape, h.pHide1, h.pHide2, h.imageShape, h.imgOffset, h.density,
      (inverted_iff h.density).2 h.densityOrder, h.diameters, h.intensities, h.rhos, h.diameterVar, h.intensityVar,
      h.rhoVar, h.noiseUniform, h.noiseGaussianMean, h16, h17, trivial⟩

/-! ### Which exception -/

/-- The condition can be evaluated. -/
def Evaluates (c : Except Exc Bool) : Prop := ∃ b, c = .ok b

theorem require_err {c : Except Exc Bool} {r : Except Exc Unit} {e : Exc} (hc : Evaluates c)
    (hr : r = .error e → e = .valueError) (h : require c r = .error e) : e = .valueError := by
  obtain ⟨b, rfl⟩ := hc
  cases b
  · simpa [require] using h.symm
  · exact hr h

theorem andE_evaluates {a b : Except Exc Bool} (ha : Evaluates a) (hb : Evaluates b) : Evaluates (andE a b) := by
  obtain ⟨x, rfl⟩ := ha
  cases x
  · exact ⟨false, rfl⟩
  · exact hb

theorem allE_evaluates {α : Type} {p : α → Except Exc Bool} {l : List α} (h : ∀ x ∈ l, Evaluates (p x)) :
    Evaluates (allE p l) := by
  induction l with
  | nil => exact ⟨true, rfl⟩
  | cons a l ih =>
    exact andE_evaluates (h a List.mem_cons_self) (ih fun x hx => h x (List.mem_cons_of_mem _ hx))

theorem requirePairs_err {v : Val} {f : List (Val × Val) → Except Exc Bool} {r : Except Exc Unit} {e : Exc}
    (hc : ∀ l, pairs v = some l → Evaluates (f l))
    (hr : r = .error e → e = .valueError) (h : requirePairs v f r = .error e) : e = .valueError := by
  unfold requirePairs at h
  split at h
  · simpa using h.symm
  · rename_i l hl; exact require_err (hc l hl) hr h

/-- With numbers in the fields that are compared without check, only `ValueError` is raised. -/
theorem validate_err {s : Types.Spec} (hs : Comparable s) {e : Exc} (h : s.validate = .error e) : e = .valueError := by
  obtain ⟨⟨x1, hx1⟩, ⟨x2, hx2⟩, hr⟩ := hs
  have hprob : ∀ {v : Val} {x : Num}, v.asNum = some x → Evaluates (probability v) := by
    intro v x hv
    unfold probability Val.leNum Val.numLe
    rw [hv]
    exact andE_evaluates ⟨_, rfl⟩ ⟨_, rfl⟩
  have hpair : ∀ v ∈ [s.diameterRanges, s.intensityRanges, s.rhoRanges], ∀ l, pairs v = some l → ∀ p ∈ l,
      (∃ x, p.1.asNum = some x) ∧ (∃ y, p.2.asNum = some y) := by
    intro v hv l hl p hp
    obtain ⟨_, rfl⟩ := pairs_some.1 hl
    exact hr _ hv _ rfl p.1 p.2 (List.mem_map.2 ⟨p, hp, rfl⟩)
  have hpos : ∀ v ∈ [s.diameterRanges, s.intensityRanges, s.rhoRanges], ∀ l, pairs v = some l →
      Evaluates (posRanges l) := by
    intro v hv l hl
    apply allE_evaluates
    intro p hp
    obtain ⟨⟨x, hx⟩, ⟨y, hy⟩⟩ := hpair v hv l hl p hp
    apply andE_evaluates
    · unfold Val.ltNum; rw [hx]; exact ⟨_, rfl⟩
    · unfold Val.le Val.leNum; rw [hx, hy]; exact ⟨_, rfl⟩
  have hrho : Evaluates (probability s.pHide1) ∧ ∀ l, pairs s.rhoRanges = some l → Evaluates (rhoOK l) := by
    refine ⟨hprob hx1, ?_⟩
    intro l hl
    apply allE_evaluates
    intro p hp
    obtain ⟨⟨x, hx⟩, ⟨y, hy⟩⟩ := hpair _ (by simp) l hl p hp
    apply andE_evaluates
    · unfold Val.ltNum; rw [hx]; exact ⟨_, rfl⟩
    · apply andE_evaluates
      · unfold Val.le Val.leNum; rw [hx, hy]; exact ⟨_, rfl⟩
      · unfold Val.numLt; rw [hy]; exact ⟨_, rfl⟩
  unfold Types.Spec.validate at h
  refine require_err ⟨_, rfl⟩ ?_ h; clear h; intro h
  refine require_err ⟨_, rfl⟩ ?_ h; clear h; intro h
  refine require_err (hprob hx1) ?_ h; clear h; intro h
  refine require_err (hprob hx2) ?_ h; clear h; intro h
  refine require_err ⟨_, rfl⟩ ?_ h; clear h; intro h
  refine require_err ⟨_, rfl⟩ ?_ h; clear h; intro h
  refine require_err ⟨_, rfl⟩ ?_ h; clear h; intro h
  refine require_err ⟨_, rfl⟩ ?_ h; clear h; intro h
  refine requirePairs_err (hpos _ (by simp)) ?_ h; clear h; intro h
  refine requirePairs_err (hpos _ (by simp)) ?_ h; clear h; intro h
  refine requirePairs_err hrho.2 ?_ h; clear h; intro h
  refine require_err ⟨_, rfl⟩ ?_ h; clear h; intro h
  refine require_err ⟨_, rfl⟩ ?_ h; clear h; intro h
  refine require_err ⟨_, rfl⟩ ?_ h; clear h; intro h
  refine require_err ⟨_, rfl⟩ ?_ h; clear h; intro h
  refine require_err ⟨_, rfl⟩ ?_ h; clear h; intro h
  refine require_err ⟨_, rfl⟩ ?_ h; clear h; intro h
  refine require_err ⟨_, rfl⟩ ?_ h; clear h; intro h
  cases h

/-! ### Trees -/

mutual
theorem Tree.fill_leaves {L : Type} (t : Tree L) (rest : List L) :
    t.shape.fill (t.leaves ++ rest) = some (t, rest) := by
  cases t with
  | leaf l => simp [Tree.shape, Tree.leaves, Tree.fill]
  | node n cs =>
    have := Tree.fill_leaves_go cs rest
    simp only [Tree.shape, Tree.leaves, Tree.fill, this]
theorem Tree.fill_leaves_go {L : Type} (cs : List (Tree L)) (rest : List L) :
    Tree.fill.go (Tree.shape.go cs) (Tree.leaves.go cs ++ rest) = some (cs, rest) := by
  cases cs with
  | nil => simp [Tree.shape.go, Tree.leaves.go, Tree.fill.go]
  | cons c cs =>
    have h1 := Tree.fill_leaves c (Tree.leaves.go cs ++ rest)
    have h2 := Tree.fill_leaves_go cs rest
    simp only [Tree.shape.go, Tree.leaves.go, Tree.fill.go, List.append_assoc, h1, h2]
end

end Verif.Types
