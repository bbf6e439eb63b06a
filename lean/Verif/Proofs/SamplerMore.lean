import Verif.Proofs.SamplerRun
/-!
# Lemmas about the samplers: even use of flow fields, keys, reset
-/

namespace Verif.Sampler
open Verif
variable {S B F O I A : Type}

/-! ## Counting -/

theorem countP_range_add (P : Nat → Bool) (a b : Nat) :
    (List.range (a + b)).countP P = (List.range a).countP P + (List.range b).countP (fun i => P (a + i)) := by
  rw [List.range_add, List.countP_append, List.countP_map]
  rfl

theorem countP_mod (m r : Nat) (hr : r < m) : ∀ b, (List.range b).countP (fun i => decide (i % m = r)) =
    b / m + if r < b % m then 1 else 0
  | 0 => by simp
  | b + 1 => by
    rw [List.range_succ, List.countP_append, countP_mod m r hr b]
    have hm : 0 < m := by omega
    have h1 := Nat.div_add_mod b m
    have h2 := Nat.mod_lt b hm
    by_cases hw : b % m + 1 < m
    · obtain ⟨e1, e2⟩ := div_mod_step (n := b + 1) (k := m) (by omega) (by simpa using hw)
      simp only [Nat.add_sub_cancel] at e1 e2
      rw [e1, e2]
      by_cases hr' : b % m = r <;> by_cases hlt : r < b % m <;> by_cases hlt2 : r < b % m + 1 <;>
        simp [hr', hlt, hlt2] <;> omega
    · obtain ⟨e1, e2⟩ := div_mod_wrap (n := b + 1) (k := m) (by omega) hm (by simp; omega)
      simp only [Nat.add_sub_cancel] at e1 e2
      rw [e1, e2]
      by_cases hr' : b % m = r <;> by_cases hlt : r < b % m <;> simp [hr', hlt] <;> omega

theorem countP_false {α : Type} (l : List α) (P : α → Bool) (h : ∀ x ∈ l, P x = false) : l.countP P = 0 := by
  rw [List.countP_eq_zero]
  intro x hx
  simp [h x hx]

theorem countP_blocks (b m dv r : Nat) (hr : r < m) : ∀ D,
    (List.range (D * b)).countP (fun i => decide ((i / b) * m + (i % b) % m = dv * m + r)) =
      if dv < D then b / m + (if r < b % m then 1 else 0) else 0
  | 0 => by simp
  | D + 1 => by
    rw [Nat.add_mul, Nat.one_mul, countP_range_add, countP_blocks b m dv r hr D]
    rcases Nat.eq_zero_or_pos b with hb | hb
    · subst hb
      simp
    have hm : 0 < m := by omega
    have hblk : (List.range b).countP (fun i => decide (((D * b + i) / b) * m + ((D * b + i) % b) % m = dv * m + r)) =
        (List.range b).countP (fun i => decide (D = dv) && decide (i % m = r)) := by
      apply List.countP_congr
      intro i hi
      have hi' : i < b := by simpa using hi
      have e1 : (D * b + i) / b = D := by
        rw [Nat.mul_comm, Nat.mul_add_div hb, Nat.div_eq_of_lt hi', Nat.add_zero]
      have e2 : (D * b + i) % b = i := by
        rw [Nat.mul_comm, Nat.mul_add_mod, Nat.mod_eq_of_lt hi']
      rw [e1, e2]
      have h3 := Nat.mod_lt i hm
      simp only [decide_eq_true_eq, Bool.and_eq_true]
      constructor
      · intro h
        have hD : (D * m + i % m) / m = (dv * m + r) / m := by rw [h]
        rw [Nat.mul_comm D, Nat.mul_comm dv, Nat.mul_add_div hm, Nat.mul_add_div hm, Nat.div_eq_of_lt h3,
          Nat.div_eq_of_lt hr] at hD
        simp only [Nat.add_zero] at hD
        subst hD
        exact ⟨rfl, by omega⟩
      · rintro ⟨rfl, h⟩
        rw [h]
    rw [hblk]
    by_cases hd : D = dv
    · subst hd
      simp only [decide_true, Bool.true_and, Nat.lt_irrefl, if_false, Nat.lt_succ_self, if_true, Nat.zero_add]
      exact countP_mod m r hr b
    · rw [countP_false _ (fun i => decide (D = dv) && decide (i % m = r)) (by simp [hd])]
      by_cases hlt : dv < D
      · rw [if_pos hlt, if_pos (show dv < D + 1 by omega), Nat.add_zero]
      · rw [if_neg hlt, if_neg (show ¬ dv < D + 1 by omega)]

/-! ## Keys -/

/-- The ancestor of a key at a given depth. -/
def anc (n : Nat) : KeyTerm → KeyTerm
  | .seed m => .seed m
  | .sub k m i => if n ≤ k.depth then anc n k else .sub k m i
  | .fold k i => if n ≤ k.depth then anc n k else .fold k i

theorem anc_sub {n : Nat} {k : KeyTerm} (h : n ≤ k.depth) (m i : Nat) : anc n (.sub k m i) = anc n k := by
  simp [anc, h]

theorem anc_fold {n : Nat} {k : KeyTerm} (h : n ≤ k.depth) (i : Nat) : anc n (.fold k i) = anc n k := by
  simp [anc, h]

theorem anc_self (k : KeyTerm) : anc k.depth k = k := by
  cases k <;> simp [anc, KeyTerm.depth]

/-- `k` comes from `a`: it is `a` or derived from it. -/
def From (a k : KeyTerm) : Prop := a.depth ≤ k.depth ∧ anc a.depth k = a

theorem From.refl (a : KeyTerm) : From a a := ⟨Nat.le_refl _, anc_self a⟩

theorem From.sub {a k : KeyTerm} (h : From a k) (n i : Nat) : From a (.sub k n i) :=
  ⟨by simp [KeyTerm.depth]; have := h.1; omega, by rw [anc_sub h.1]; exact h.2⟩

theorem From.fold {a k : KeyTerm} (h : From a k) (i : Nat) : From a (.fold k i) :=
  ⟨by simp [KeyTerm.depth]; have := h.1; omega, by rw [anc_fold h.1]; exact h.2⟩

theorem From.eq {a b k : KeyTerm} (h : From a k) (h' : From b k) (hd : a.depth = b.depth) : a = b := by
  rw [← h.2, ← h'.2, hd]

theorem imageUses_from (k : KeyTerm) (i : Nat) : ∀ u ∈ keysOf (imageUses k i), From (.fold k i) u := by
  intro u hu
  have h := From.refl (.fold k i)
  simp only [keysOf, imageUses, noiseUses, List.map_cons, List.map_append, List.map_nil, List.mem_append, List.mem_cons,
    List.not_mem_nil, or_false] at hu
  rcases hu with (((rfl | rfl | rfl | rfl | rfl | rfl | rfl | rfl | rfl | rfl | rfl | rfl | rfl) | (rfl | rfl | rfl)) |
    (rfl | rfl | rfl)) | (rfl | rfl | rfl)
  all_goals first
    | exact h
    | exact h.sub _ _
    | exact (h.sub _ _).sub _ _

theorem imageUses_nodup (k : KeyTerm) (i : Nat) : (keysOf (imageUses k i)).Nodup := by
  simp [keysOf, imageUses, noiseUses]

theorem nodup_flatMap_from {α : Type} (f : α → List KeyTerm) (a : α → KeyTerm) (l : List α) (hl : l.Nodup)
    (hinj : ∀ x ∈ l, ∀ y ∈ l, a x = a y → x = y) (hdep : ∀ x ∈ l, ∀ y ∈ l, (a x).depth = (a y).depth)
    (hf : ∀ x ∈ l, ∀ u ∈ f x, From (a x) u) (hn : ∀ x ∈ l, (f x).Nodup) : (l.flatMap f).Nodup := by
  rw [List.nodup_flatMap]
  refine ⟨hn, ?_⟩
  rw [List.Nodup, List.pairwise_iff_forall_sublist] at hl
  rw [List.pairwise_iff_forall_sublist]
  intro x y hxy
  have hx : x ∈ l := hxy.subset (by simp)
  have hy : y ∈ l := hxy.subset (by simp)
  intro u hu hv
  exact hl hxy (hinj x hx y hy ((hf x hx u hu).eq (hf y hy u hv) (hdep x hx y hy)))

theorem keysOf_flatMap {α : Type} (f : α → List (Use × KeyTerm)) (l : List α) :
    keysOf (l.flatMap f) = l.flatMap (fun x => keysOf (f x)) := by
  simp [keysOf, List.map_flatMap]

theorem From.trans {a b k : KeyTerm} (h : From a b) (h' : From b k) : From a k := by
  refine ⟨Nat.le_trans h.1 h'.1, ?_⟩
  have key : ∀ k : KeyTerm, b.depth ≤ k.depth → anc a.depth (anc b.depth k) = anc a.depth k := by
    intro k
    induction k with
    | seed m => intro _; rfl
    | sub k m i ih =>
      intro hle
      by_cases hb : b.depth ≤ k.depth
      · rw [anc_sub hb, anc_sub (Nat.le_trans h.1 hb), ih hb]
      · simp [anc, hb]
    | fold k i ih =>
      intro hle
      by_cases hb : b.depth ≤ k.depth
      · rw [anc_fold hb, anc_fold (Nat.le_trans h.1 hb), ih hb]
      · simp [anc, hb]
  rw [← key k h'.1, h'.2, h.2]

theorem not_from_deeper {a k : KeyTerm} (h : k.depth < a.depth) : ¬ From a k := fun hf => by have := hf.1; omega

theorem deviceUses_from (k : KeyTerm) (b : Nat) : ∀ u ∈ keysOf (deviceUses k b), From k u := by
  intro u hu
  unfold deviceUses at hu
  rw [keysOf, List.map_append, ← keysOf, ← keysOf, keysOf_flatMap] at hu
  simp only [keysOf, List.map_cons, List.map_nil, List.mem_append, List.mem_cons, List.not_mem_nil, or_false,
    List.mem_flatMap, KeyTerm.split2] at hu
  rcases hu with (rfl | rfl) | ⟨i, _, hu⟩
  · exact .refl _
  · exact (From.refl _).sub _ _
  · exact ((From.refl k).sub 2 0).trans (((From.refl _).fold i).trans (imageUses_from _ i u hu))

theorem deviceUses_nodup (k : KeyTerm) (b : Nat) : (keysOf (deviceUses k b)).Nodup := by
  unfold deviceUses
  rw [keysOf, List.map_append, ← keysOf, ← keysOf, keysOf_flatMap, List.nodup_append']
  refine ⟨?_, ?_, ?_⟩
  · simp only [keysOf, List.map_cons, List.map_nil, KeyTerm.split2]
    have : k ≠ .sub k 2 1 := fun h => by
      have := congrArg KeyTerm.depth h
      simp [KeyTerm.depth] at this
    simp [this]
  · refine nodup_flatMap_from _ (fun i => .fold k.split2.1 i) _ List.nodup_range ?_ ?_ ?_ ?_
    · intro x _ y _ h; simpa using h
    · intro x _ y _; rfl
    · intro x _ u hu; exact imageUses_from _ x u hu
    · intro x _; exact imageUses_nodup _ x
  · intro u hu hv
    obtain ⟨i, _, hv⟩ := List.mem_flatMap.mp hv
    have hf := ((From.refl (.sub k 2 0)).fold i).trans (imageUses_from _ i u hv)
    simp only [keysOf, List.map_cons, List.map_nil, KeyTerm.split2, List.mem_cons, List.not_mem_nil, or_false] at hu
    rcases hu with rfl | rfl
    · exact not_from_deeper (by simp [KeyTerm.depth]) hf
    · have := hf.eq (.refl _) rfl
      simp at this

theorem batchUses_from (rng : KeyTerm) (d b : Nat) :
    ∀ u ∈ keysOf (batchUses rng d b), u = rng ∨ From (.sub rng 2 1) u := by
  intro u hu
  unfold batchUses at hu
  rw [keysOf, List.map_append, ← keysOf, ← keysOf, keysOf_flatMap] at hu
  simp only [keysOf, List.map_cons, List.map_nil, List.mem_append, List.mem_cons, List.not_mem_nil, or_false,
    List.mem_flatMap, KeyTerm.split2] at hu
  rcases hu with (rfl | rfl) | ⟨i, _, hu⟩
  · exact Or.inl rfl
  · exact Or.inr (.refl _)
  · exact Or.inr (((From.refl _).sub d i).trans (deviceUses_from _ b u hu))

theorem batchUses_nodup (rng : KeyTerm) (d b : Nat) : (keysOf (batchUses rng d b)).Nodup := by
  unfold batchUses
  rw [keysOf, List.map_append, ← keysOf, ← keysOf, keysOf_flatMap, List.nodup_append']
  refine ⟨?_, ?_, ?_⟩
  · simp only [keysOf, List.map_cons, List.map_nil, KeyTerm.split2]
    have : rng ≠ .sub rng 2 1 := fun h => by
      have := congrArg KeyTerm.depth h
      simp [KeyTerm.depth] at this
    simp [this]
  · refine nodup_flatMap_from _ (fun i => .sub rng.split2.2 d i) _ List.nodup_range ?_ ?_ ?_ ?_
    · intro x _ y _ h; simpa using h
    · intro x _ y _; rfl
    · intro x _ u hu; exact deviceUses_from _ b u hu
    · intro x _; exact deviceUses_nodup _ b
  · intro u hu hv
    obtain ⟨i, _, hv⟩ := List.mem_flatMap.mp hv
    have hf := deviceUses_from _ b u hv
    simp only [keysOf, List.map_cons, List.map_nil, KeyTerm.split2, List.mem_cons, List.not_mem_nil, or_false] at hu
    rcases hu with rfl | rfl
    · exact not_from_deeper (by simp [KeyTerm.depth, KeyTerm.split2]; omega) hf
    · exact not_from_deeper (by simp [KeyTerm.depth, KeyTerm.split2]) hf

theorem runUses_from (d b : Nat) : ∀ (n : Nat) (rng : KeyTerm), ∀ u ∈ keysOf (runUses d b n rng), From rng u
  | 0, _, u, hu => by simp [runUses, keysOf] at hu
  | n + 1, rng, u, hu => by
    unfold runUses at hu
    rw [keysOf, List.map_append, ← keysOf, ← keysOf, List.mem_append] at hu
    rcases hu with hu | hu
    · rcases batchUses_from rng d b u hu with rfl | h
      · exact .refl _
      · exact ((From.refl _).sub 2 1).trans h
    · exact ((From.refl _).sub 2 0).trans (runUses_from d b n _ u hu)

theorem runUses_nodup (d b : Nat) : ∀ (n : Nat) (rng : KeyTerm), (keysOf (runUses d b n rng)).Nodup
  | 0, _ => by simp [runUses, keysOf]
  | n + 1, rng => by
    unfold runUses
    rw [keysOf, List.map_append, ← keysOf, ← keysOf, List.nodup_append']
    refine ⟨batchUses_nodup _ _ _, runUses_nodup d b n _, ?_⟩
    intro u hu hv
    have hf := runUses_from d b n _ u hv
    rcases batchUses_from rng d b u hu with rfl | h
    · exact not_from_deeper (by simp [KeyTerm.depth, KeyTerm.split2]) hf
    · have := hf.eq h rfl
      simp [KeyTerm.split2] at this

theorem From.of_derived {a k : KeyTerm} (h : Derived a k) : From a k := by
  induction h with
  | self => exact .refl _
  | split n i _ ih => exact ih.sub n i
  | fold i _ ih => exact ih.fold i

/-- No other key in the list comes from a key that a draw has used. -/
def Spent (l : List (Use × KeyTerm)) : Prop := ∀ x ∈ l, x.1 ≠ .split → ∀ y ∈ l, From x.2 y.2 → x = y

theorem imageUses_spent (k : KeyTerm) (i : Nat) : Spent (imageUses k i) := by
  intro x hx hs y hy hf
  simp only [imageUses, noiseUses, List.mem_append, List.mem_cons, List.not_mem_nil, or_false] at hx hy
  rcases hx with (((rfl | rfl | rfl | rfl | rfl | rfl | rfl | rfl | rfl | rfl | rfl | rfl | rfl) | (rfl | rfl | rfl)) |
    (rfl | rfl | rfl)) | (rfl | rfl | rfl)
  all_goals first
    | exact absurd rfl hs
    | skip
  all_goals
    rcases hy with (((rfl | rfl | rfl | rfl | rfl | rfl | rfl | rfl | rfl | rfl | rfl | rfl | rfl) | (rfl | rfl | rfl)) |
      (rfl | rfl | rfl)) | (rfl | rfl | rfl)
  all_goals first
    | rfl
    | (exfalso; revert hf; simp [From, anc, KeyTerm.depth]; done)
    | (exfalso; revert hf; simp [From, anc, KeyTerm.depth]; omega)

theorem mem_keys {l : List (Use × KeyTerm)} {x : Use × KeyTerm} (h : x ∈ l) : x.2 ∈ keysOf l := List.mem_map_of_mem h

theorem spent_flatMap {α : Type} (f : α → List (Use × KeyTerm)) (a : α → KeyTerm) (l : List α)
    (hinj : ∀ x ∈ l, ∀ y ∈ l, a x = a y → x = y) (hdep : ∀ x ∈ l, ∀ y ∈ l, (a x).depth = (a y).depth)
    (hf : ∀ x ∈ l, ∀ u ∈ keysOf (f x), From (a x) u) (hn : ∀ x ∈ l, Spent (f x)) : Spent (l.flatMap f) := by
  intro x hx hs y hy hfr
  obtain ⟨i, hi, hx⟩ := List.mem_flatMap.mp hx
  obtain ⟨j, hj, hy⟩ := List.mem_flatMap.mp hy
  have h1 := (hf i hi _ (mem_keys hx)).trans hfr
  have := hinj i hi j hj (h1.eq (hf j hj _ (mem_keys hy)) (hdep i hi j hj))
  subst this
  exact hn i hi x hx hs y hy hfr

theorem deviceUses_spent (k : KeyTerm) (b : Nat) : Spent (deviceUses k b) := by
  have himg : ∀ y ∈ (List.range b).flatMap (imageUses k.split2.1), From (.sub k 2 0) y.2 := by
    intro y hy
    obtain ⟨i, _, hy⟩ := List.mem_flatMap.mp hy
    exact ((From.refl (.sub k 2 0)).fold i).trans (imageUses_from _ i _ (mem_keys hy))
  intro x hx hs y hy hf
  unfold deviceUses at hx hy
  simp only [KeyTerm.split2, List.cons_append, List.nil_append, List.mem_cons] at hx hy
  rcases hx with rfl | rfl | hx
  · exact absurd rfl hs
  · rcases hy with rfl | rfl | hy
    · exact absurd hf (not_from_deeper (by simp [KeyTerm.depth]))
    · rfl
    · have := hf.eq (himg y hy) rfl
      simp at this
  · rcases hy with rfl | rfl | hy
    · exact absurd ((himg x hx).trans hf) (not_from_deeper (by simp [KeyTerm.depth]))
    · have := ((himg x hx).trans hf).eq (.refl _) rfl
      simp at this
    · refine spent_flatMap _ (fun i => .fold k.split2.1 i) (List.range b) ?_ ?_ ?_ ?_ x hx hs y hy hf
      · intro x _ y _ h; simpa using h
      · intro x _ y _; rfl
      · intro x _ u hu; exact imageUses_from _ x u hu
      · intro x _; exact imageUses_spent _ x

theorem batchUses_spent (rng : KeyTerm) (d b : Nat) : Spent (batchUses rng d b) := by
  have hdev : ∀ y ∈ (List.range d).flatMap (fun j => deviceUses (.sub (.sub rng 2 1) d j) b), ∃ j, From (.sub (.sub rng 2 1) d j) y.2 := by
    intro y hy
    obtain ⟨j, _, hy⟩ := List.mem_flatMap.mp hy
    exact ⟨j, deviceUses_from _ b _ (mem_keys hy)⟩
  intro x hx hs y hy hf
  unfold batchUses at hx hy
  simp only [KeyTerm.split2, List.cons_append, List.nil_append, List.mem_cons] at hx hy
  rcases hx with rfl | rfl | hx
  · exact absurd rfl hs
  · exact absurd rfl hs
  · obtain ⟨j, hj⟩ := hdev x hx
    rcases hy with rfl | rfl | hy
    · exact absurd (hj.trans hf) (not_from_deeper (by simp [KeyTerm.depth]; omega))
    · exact absurd (hj.trans hf) (not_from_deeper (by simp [KeyTerm.depth]))
    · refine spent_flatMap _ (fun i => .sub (.sub rng 2 1) d i) (List.range d) ?_ ?_ ?_ ?_ x hx hs y hy hf
      · intro x _ y _ h; simpa using h
      · intro x _ y _; rfl
      · intro x _ u hu; exact deviceUses_from _ b u hu
      · intro x _; exact deviceUses_spent _ b

theorem runUses_spent (d b : Nat) : ∀ (n : Nat) (rng : KeyTerm), Spent (runUses d b n rng)
  | 0, _ => by intro x hx; cases hx
  | n + 1, rng => by
    intro x hx hs y hy hf
    unfold runUses at hx hy
    rw [List.mem_append] at hx hy
    have hdraw : x ∈ batchUses rng d b → From (.sub rng 2 1) x.2 := by
      intro hx
      unfold batchUses at hx
      simp only [KeyTerm.split2, List.cons_append, List.nil_append, List.mem_cons] at hx
      rcases hx with rfl | rfl | hx
      · exact absurd rfl hs
      · exact absurd rfl hs
      · obtain ⟨j, _, hx⟩ := List.mem_flatMap.mp hx
        exact ((From.refl _).sub d j).trans (deviceUses_from _ b _ (mem_keys hx))
    rcases hx with hx | hx <;> rcases hy with hy | hy
    · exact batchUses_spent rng d b x hx hs y hy hf
    · have h1 := (hdraw hx).trans hf
      have := h1.eq (runUses_from d b n _ _ (mem_keys hy)) rfl
      simp [KeyTerm.split2] at this
    · have h1 := (runUses_from d b n _ _ (mem_keys hx)).trans hf
      rcases batchUses_from rng d b _ (mem_keys hy) with h | h
      · rw [h] at h1
        exact absurd h1 (not_from_deeper (by simp [KeyTerm.depth, KeyTerm.split2]))
      · have := h1.eq h rfl
        simp [KeyTerm.split2] at this
    · exact runUses_spent d b n _ x hx hs y hy hf

/-! ## Reset -/

/-- Two sampler states that will show the same: same key, related schedulers, and whatever has been fetched is the same
(as far as it can still be shown). -/
structure Alike (cfg : Cfg) (R : S → S → Prop) (s t : St S F O) : Prop where
  sched : R s.sched t.sched
  rng : s.rng = t.rng
  cur : s.cur = t.cur
  generated : s.generated = t.generated
  rest : ∀ fl, s.cur = some fl → s.mask = t.mask ∧ s.files = t.files ∧ (fl.length % cfg.ndevices = 0 → s.outFlows = t.outFlows)

/-- The relation of `SameBehaviour` is kept by every call. -/
def Keeps (sch : ISched S B) (R : S → S → Prop) : Prop := ∀ s t, R s t →
    (∀ n, (sch.getBatch n s).map (·.1) = (sch.getBatch n t).map (·.1)) ∧
    (∀ n r r' s' t', sch.getBatch n s = some (r, s') → sch.getBatch n t = some (r', t') → R s' t') ∧
    (∀ e, sch.episodic = some e → e.1 s = e.1 t ∧
      ((∃ x, e.2 s = .error x ∧ e.2 t = .error x) ∨ ∃ s' t', e.2 s = .ok s' ∧ e.2 t = .ok t' ∧ R s' t')) ∧
    ((∃ x, sch.reset s = .error x ∧ sch.reset t = .error x) ∨ ∃ s' t', sch.reset s = .ok s' ∧ sch.reset t = .ok t' ∧ R s' t')

theorem Keeps.episodeOver {sch : ISched S B} {R : S → S → Prop} (hk : Keeps sch R) {s t : S} (h : R s t) :
    episodeOver sch s = episodeOver sch t := by
  unfold Sampler.episodeOver
  cases he : sch.episodic with
  | none => rfl
  | some e => simp only [((hk s t h).2.2.1 e he).1]

theorem Keeps.makeDone {sch : ISched S B} {R : S → S → Prop} (hk : Keeps sch R) {s t : S} (h : R s t) (b : Nat) :
    makeDone sch b s = makeDone sch b t := by
  unfold Sampler.makeDone
  cases he : sch.episodic with
  | none => rfl
  | some e => simp only [Option.map_some, ((hk s t h).2.2.1 e he).1]

theorem Keeps.getBatch {sch : ISched S B} {R : S → S → Prop} (hk : Keeps sch R) {s t : S} (h : R s t) (n : Nat) :
    (sch.getBatch n s = none ∧ sch.getBatch n t = none) ∨
    ∃ r s' t', sch.getBatch n s = some (r, s') ∧ sch.getBatch n t = some (r, t') ∧ R s' t' := by
  have h1 := (hk s t h).1 n
  have h2 := (hk s t h).2.1 n
  cases hs : sch.getBatch n s with
  | none =>
    rw [hs] at h1
    simp only [Option.map_none] at h1
    cases ht : sch.getBatch n t with
    | none => exact Or.inl ⟨rfl, rfl⟩
    | some q => rw [ht] at h1; simp at h1
  | some q =>
    rw [hs] at h1
    cases ht : sch.getBatch n t with
    | none => rw [ht] at h1; simp at h1
    | some q' =>
      rw [ht] at h1
      simp only [Option.map_some, Option.some.injEq] at h1
      exact Or.inr ⟨q.1, q.2, q'.2, rfl, by rw [h1], h2 _ _ _ _ hs ht⟩

theorem produce_alike {cfg : Cfg} {R : S → S → Prop} (g : Gen F O I) {s t : St S F O} (h : Alike cfg R s t) (fl : List F)
    (hcur : s.cur = some fl) :
    (produce g cfg fl s).1 = (produce g cfg fl t).1 ∧ Alike cfg R (produce g cfg fl s).2 (produce g cfg fl t).2 := by
  obtain ⟨h1, h2, h3, h4, h5⟩ := h
  obtain ⟨h6, h7, h8⟩ := h5 fl hcur
  unfold produce
  by_cases hl : fl.length % cfg.ndevices ≠ 0
  · simp only [if_pos hl]
    exact ⟨trivial, ⟨h1, by simp [h2], h3, h4, h5⟩⟩
  · simp only [if_neg hl]
    have h9 := h8 (by omega)
    exact ⟨by rw [h2, h6, h7, h9], ⟨h1, by simp [h2], h3, by simp [h4], h5⟩⟩

theorem fetch_alike {sch : ISched S (FlowBatch F)} {cfg : Cfg} {R : S → S → Prop} (hk : Keeps sch R) (g : Gen F O I)
    {s t : St S F O} (h : Alike cfg R s t) :
    (getNext.fetch sch g cfg s = none ∧ getNext.fetch sch g cfg t = none) ∨
    ∃ r s' t', getNext.fetch sch g cfg s = some (r, s') ∧ getNext.fetch sch g cfg t = some (r, t') ∧ Alike cfg R s' t' := by
  unfold getNext.fetch
  rcases hk.getBatch h.sched cfg.ffpb with ⟨h1, h2⟩ | ⟨r, s', t', h1, h2, hR⟩
  · left; rw [h1, h2]; exact ⟨rfl, rfl⟩
  right
  rw [h1, h2]
  cases r with
  | error e => exact ⟨_, _, _, rfl, rfl, ⟨hR, h.rng, h.cur, rfl, h.rest⟩⟩
  | ok b =>
    simp only
    by_cases hl : b.flows.length % cfg.ndevices ≠ 0
    · simp only [if_pos hl]
      exact ⟨_, _, _, rfl, rfl, ⟨hR, h.rng, rfl, rfl, fun fl hfl => ⟨rfl, rfl, fun h0 => by
        simp only [Option.some.injEq] at hfl; rw [← hfl] at h0; exact absurd h0 hl⟩⟩⟩
    · simp only [if_neg hl]
      have ha : Alike cfg R
          { s with generated := 0, sched := s', cur := some (adaptAll g cfg b.flows).2, mask := b.mask, files := b.files, outFlows := (adaptAll g cfg b.flows).1 }
          { t with generated := 0, sched := t', cur := some (adaptAll g cfg b.flows).2, mask := b.mask, files := b.files, outFlows := (adaptAll g cfg b.flows).1 } :=
        ⟨hR, h.rng, rfl, rfl, fun _ _ => ⟨rfl, rfl, fun _ => rfl⟩⟩
      have := produce_alike g ha (adaptAll g cfg b.flows).2 rfl
      exact ⟨_, _, _, rfl, by rw [Option.some.injEq]; exact Prod.ext this.1.symm rfl, this.2⟩

theorem next_alike {sch : ISched S (FlowBatch F)} {cfg : Cfg} {R : S → S → Prop} (hk : Keeps sch R) (g : Gen F O I)
    {s t : St S F O} (h : Alike cfg R s t) :
    (next sch g cfg s = none ∧ next sch g cfg t = none) ∨
    ∃ r s' t', next sch g cfg s = some (r, s') ∧ next sch g cfg t = some (r, t') ∧ Alike cfg R s' t' := by
  have hg : (getNext sch g cfg s = none ∧ getNext sch g cfg t = none) ∨
      ∃ r s' t', getNext sch g cfg s = some (r, s') ∧ getNext sch g cfg t = some (r, t') ∧ Alike cfg R s' t' := by
    have hc := h.cur
    unfold getNext
    cases hs : s.cur with
    | none =>
      rw [hs] at hc
      rw [← hc]
      exact fetch_alike hk g h
    | some fl =>
      rw [hs] at hc
      rw [← hc]
      simp only
      rw [← h.generated]
      by_cases hlt : s.generated < cfg.bpfb
      · simp only [if_pos hlt]
        have := produce_alike g h fl hs
        exact Or.inr ⟨_, _, _, rfl, by rw [Option.some.injEq]; exact Prod.ext this.1.symm rfl, this.2⟩
      · simp only [if_neg hlt]
        exact fetch_alike hk g h
  unfold next
  rw [hk.episodeOver h.sched]
  by_cases ho : episodeOver sch t.sched
  · rw [if_pos ho, if_pos ho]
    exact Or.inr ⟨_, _, _, rfl, rfl, h⟩
  rw [if_neg ho, if_neg ho]
  rcases hg with ⟨h1, h2⟩ | ⟨r, s', t', h1, h2, ha⟩
  · rw [h1, h2]; exact Or.inl ⟨rfl, rfl⟩
  rw [h1, h2]
  cases r with
  | error e => exact Or.inr ⟨_, _, _, rfl, rfl, ha⟩
  | ok b => exact Or.inr ⟨_, _, _, rfl, by simp only [hk.makeDone ha.sched], ha⟩

theorem step_alike {sch : ISched S (FlowBatch F)} {cfg : Cfg} {R : S → S → Prop} (hk : Keeps sch R) (g : Gen F O I)
    {s t : St S F O} (h : Alike cfg R s t) (op : Op) :
    (step sch g cfg s op = none ∧ step sch g cfg t op = none) ∨
    ∃ r s' t', step sch g cfg s op = some (r, s') ∧ step sch g cfg t op = some (r, t') ∧ Alike cfg R s' t' := by
  cases op with
  | next =>
    unfold step
    rcases next_alike hk g h with ⟨h1, h2⟩ | ⟨r, s', t', h1, h2, ha⟩
    · rw [h1, h2]; exact Or.inl ⟨rfl, rfl⟩
    · rw [h1, h2]; exact Or.inr ⟨_, _, _, rfl, rfl, ha⟩
  | reset b =>
    right
    cases b with
    | false =>
      exact ⟨_, _, _, rfl, rfl, ⟨h.sched, rfl, rfl, rfl, by simp [reset, resetSelf]⟩⟩
    | true =>
      unfold step
      rcases (hk _ _ h.sched).2.2.2 with ⟨x, h1, h2⟩ | ⟨s', t', h1, h2, hR⟩
      · simp only [reset, resetSelf, h1, h2]
        exact ⟨_, _, _, rfl, rfl, ⟨h.sched, rfl, rfl, rfl, by simp⟩⟩
      · simp only [reset, resetSelf, h1, h2]
        exact ⟨_, _, _, rfl, rfl, ⟨hR, rfl, rfl, rfl, by simp⟩⟩
  | nextEpisode =>
    right
    unfold step nextEpisode
    cases he : sch.episodic with
    | none => exact ⟨_, _, _, rfl, rfl, h⟩
    | some e =>
      rcases ((hk _ _ h.sched).2.2.1 e he).2 with ⟨x, h1, h2⟩ | ⟨s', t', h1, h2, hR⟩
      · simp only [h1, h2]; exact ⟨_, _, _, rfl, rfl, h⟩
      · simp only [h1, h2]; exact ⟨_, _, _, rfl, rfl, ⟨hR, h.rng, h.cur, h.generated, h.rest⟩⟩

theorem run_alike {sch : ISched S (FlowBatch F)} {cfg : Cfg} {R : S → S → Prop} (hk : Keeps sch R) (g : Gen F O I) :
    ∀ (ops : List Op) (s t : St S F O), Alike cfg R s t →
      (run sch g cfg ops s).map (·.1) = (run sch g cfg ops t).map (·.1)
  | [], _, _, _ => rfl
  | op :: ops, s, t, h => by
    unfold run
    rcases step_alike hk g h op with ⟨h1, h2⟩ | ⟨r, s', t', h1, h2, ha⟩
    · rw [h1, h2]
    · rw [h1, h2]
      simp only
      have := run_alike hk g ops s' t' ha
      cases h3 : run sch g cfg ops s' with
      | none =>
        cases h4 : run sch g cfg ops t' with
        | none => rfl
        | some q => rw [h3, h4] at this; simp at this
      | some q =>
        cases h4 : run sch g cfg ops t' with
        | none => rw [h3, h4] at this; simp at this
        | some q' =>
          rw [h3, h4] at this
          simp only [Option.map_some, Option.some.injEq] at this ⊢
          rw [this]

end Verif.Sampler
