import Verif.Model.Scripts
import Verif.Proofs.Rounding
import Mathlib.Data.List.DropRight
import Mathlib.Data.List.Nodup
import Mathlib.Algebra.Order.Floor.Ring
import Mathlib.Tactic.Linarith
import Mathlib.Tactic.Positivity
/-!
# Lemmas on the dataset scripts
-/

namespace Verif.Scripts
open Verif

theorem newlines_noCR (l : List Char) : '\r' ∉ newlines l := by
  induction l using newlines.induct with
  | case1 => simp [newlines]
  | case2 l ih => simpa [newlines] using ih
  | case3 c l h ih =>
    rw [newlines]
    · intro hm
      rcases List.mem_cons.1 hm with hm | hm
      · split at hm
        · exact absurd hm (by decide)
        · exact absurd hm.symm (by assumption)
      · exact ih hm
    · exact h

theorem newlines_id {l : List Char} (h : '\r' ∉ l) : newlines l = l := by
  induction l using newlines.induct with
  | case1 => rfl
  | case2 l ih => simp at h
  | case3 c l h' ih =>
    simp only [List.mem_cons, not_or] at h
    rw [newlines]
    · rw [if_neg (fun e => h.1 e.symm), ih h.2]
    · exact h'

theorem lines_append {l rest : List Char} (h : '\n' ∉ l) : lines (l ++ '\n' :: rest) = l :: lines rest := by
  induction l with
  | nil => simp [lines]
  | cons c l ih =>
    simp only [List.mem_cons, not_or] at h
    rw [List.cons_append, lines, if_neg (fun e => h.1 e.symm), ih h.2]

theorem lines_writeList {items : List (List Char)} (h : ∀ l ∈ items, '\n' ∉ l) : lines (writeList items) = items := by
  induction items with
  | nil => rfl
  | cons a l ih =>
    have : writeList (a :: l) = a ++ '\n' :: writeList l := by simp [writeList]
    rw [this, lines_append (h a (by simp)), ih (fun x hx => h x (by simp [hx]))]

theorem lines_mem {l : List Char} : ∀ x ∈ lines l, '\n' ∉ x ∧ ∀ c ∈ x, c ∈ l := by
  induction l with
  | nil => simp [lines]
  | cons c l ih =>
    intro x hx
    rw [lines] at hx
    split at hx
    · rcases List.mem_cons.1 hx with rfl | hx
      · simp
      · exact ⟨(ih x hx).1, fun d hd => by simp [(ih x hx).2 d hd]⟩
    · rename_i hc
      split at hx
      · simp only [List.mem_singleton] at hx
        subst hx
        exact ⟨by simpa using fun e => hc e.symm, by simp⟩
      · rename_i l0 ls heq
        rcases List.mem_cons.1 hx with rfl | hx
        · have := ih l0 (by rw [heq]; simp)
          refine ⟨by simpa using ⟨fun e => hc e.symm, this.1⟩, ?_⟩
          intro d hd
          rcases List.mem_cons.1 hd with rfl | hd
          · simp
          · simp [this.2 d hd]
        · have := ih x (by rw [heq]; simp [hx])
          exact ⟨this.1, fun d hd => by simp [this.2 d hd]⟩

theorem strip_eq (ws : Char → Bool) (l : List Char) : strip ws l = (l.dropWhile ws).rdropWhile ws := rfl

theorem strip_subset (ws : Char → Bool) (l : List Char) : ∀ c ∈ strip ws l, c ∈ l := by
  intro c hc
  rw [strip_eq] at hc
  exact (List.dropWhile_sublist _).subset ((List.rdropWhile_prefix ws _).subset hc)

theorem strip_strip (ws : Char → Bool) (l : List Char) : strip ws (strip ws l) = strip ws l := by
  have h1 : (strip ws l).dropWhile ws = strip ws l := by
    rw [strip_eq]
    generalize ha : l.dropWhile ws = a
    have hid : a.dropWhile ws = a := by rw [← ha]; exact List.dropWhile_idempotent ws l
    obtain ⟨t, ht⟩ := List.rdropWhile_prefix (l := a) ws
    cases hb : a.rdropWhile ws with
    | nil => rfl
    | cons c cs =>
      rw [hb] at ht
      rw [← ht, List.cons_append] at hid
      cases hc : ws c
      · simp [hc]
      · rw [List.dropWhile_cons_of_pos hc] at hid
        have := congrArg List.length hid
        have h2 := (List.dropWhile_sublist (l := cs ++ t) ws).length_le
        simp only [List.length_cons] at this
        omega
  rw [strip_eq ws (strip ws l), h1, strip_eq, List.rdropWhile_idempotent]

/-- An item that survives writing and reading. -/
def Clean (ws : Char → Bool) (l : List Char) : Prop := l ≠ [] ∧ strip ws l = l ∧ '\n' ∉ l ∧ '\r' ∉ l

theorem readList_clean (ws : Char → Bool) (content : List Char) : ∀ l ∈ readList ws content, Clean ws l := by
  intro l hl
  unfold readList at hl
  simp only [List.mem_filter, List.mem_map, decide_eq_true_eq] at hl
  obtain ⟨⟨x, hx, rfl⟩, hne⟩ := hl
  obtain ⟨h1, h2⟩ := lines_mem x hx
  refine ⟨hne, strip_strip ws x, fun h => h1 (strip_subset ws x _ h), fun h => ?_⟩
  exact newlines_noCR content (h2 _ (strip_subset ws x _ h))

theorem writeList_noCR {items : List (List Char)} (h : ∀ l ∈ items, '\r' ∉ l) : '\r' ∉ writeList items := by
  unfold writeList
  simp only [List.mem_flatMap, List.mem_append, List.mem_singleton, not_exists, not_and, not_or]
  intro l hl
  exact ⟨h l hl, by decide⟩

theorem readList_writeList (ws : Char → Bool) {items : List (List Char)} (h : ∀ l ∈ items, Clean ws l) :
    readList ws (writeList items) = items := by
  unfold readList
  rw [newlines_id (writeList_noCR (fun l hl => (h l hl).2.2.2)), lines_writeList (fun l hl => (h l hl).2.2.1)]
  have : items.map (strip ws) = items := (List.map_congr_left (fun l hl => (h l hl).2.1)).trans (List.map_id _)
  rw [this, List.filter_eq_self]
  intro l hl
  simpa using (h l hl).1

theorem splits_parts {α : Type} (fl : ℚ → ℚ) (rv rt : Int) (full : List α) (h1 : 0 ≤ share fl full.length rv)
    (h2 : 0 ≤ share fl full.length rt) (h3 : share fl full.length rv + share fl full.length rt ≤ full.length) :
    (splits fl rv rt full).train ++ (splits fl rv rt full).val ++ (splits fl rv rt full).tune = full ∧
      ((splits fl rv rt full).val.length : Int) = share fl full.length rv ∧
      ((splits fl rv rt full).tune.length : Int) = share fl full.length rt := by
  unfold splits slice sliceFrom sliceBound
  dsimp only
  generalize share fl full.length rv = v at *
  generalize share fl full.length rt = t at *
  obtain ⟨v, rfl⟩ := Int.eq_ofNat_of_zero_le h1
  obtain ⟨t, rfl⟩ := Int.eq_ofNat_of_zero_le h2
  have e1 : ¬ ((full.length : Int) - v - t < 0) := by omega
  have e2 : ¬ ((full.length : Int) - v - t + v < 0) := by omega
  rw [if_neg e1, if_neg e2]
  have e3 : min ((full.length : Int) - v - t).toNat full.length = full.length - v - t := by omega
  have e4 : min ((full.length : Int) - v - t + v).toNat full.length = full.length - t := by omega
  rw [e3, e4]
  refine ⟨?_, ?_, ?_⟩
  · simp only [lt_irrefl, if_false, Int.toNat_zero, Nat.zero_min, List.drop_zero]
    have h5 : List.take (full.length - v - t) full = List.take (full.length - v - t) (List.take (full.length - t) full) := by
      rw [List.take_take]; congr 1; omega
    rw [h5, List.take_append_drop, List.take_append_drop]
  · simp only [List.length_drop, List.length_take]; omega
  · simp only [List.length_drop]; omega

/-- With Python's floats the share is the one of exact arithmetic: the rounding error is less than 1/100, and no integer is crossed. -/
theorem share_div (total : Nat) (r : Int) (hr : 0 ≤ r) (hb : total * r < 2 ^ 53) : share binary64 total r = (total * r) / 100 := by
  unfold share
  have h0 : 0 ≤ (total : Int) * r := Int.mul_nonneg (by omega) hr
  generalize (total : Int) * r = a at *
  have ha : (0 : ℚ) ≤ (a : ℚ) := by exact_mod_cast h0
  have ha2 : (a : ℚ) < 2 ^ 53 := by exact_mod_cast hb
  have hpos : (0 : ℚ) ≤ (a : ℚ) / 100 := by positivity
  have hk0 : 0 ≤ a / 100 := by omega
  have hsplit : a = 100 * (a / 100) + a % 100 := by omega
  have hmod : a % 100 ≤ 99 := by omega
  have hmod0 : 0 ≤ a % 100 := by omega
  unfold trunc
  rw [if_neg (not_lt.2 (binary64_nonneg hpos)), Int.floor_eq_iff]
  have hq : (a : ℚ) = 100 * ((a / 100 : Int) : ℚ) + ((a % 100 : Int) : ℚ) := by exact_mod_cast hsplit
  have hm1 : ((a % 100 : Int) : ℚ) ≤ 99 := by exact_mod_cast hmod
  have hm0 : (0 : ℚ) ≤ ((a % 100 : Int) : ℚ) := by exact_mod_cast hmod0
  constructor
  · have e : binary64 ((a / 100 : Int) : ℚ) = ((a / 100 : Int) : ℚ) := binary64_int (by rw [abs_of_nonneg hk0]; omega)
    rw [← e]
    apply binary64_mono
    rw [le_div_iff₀ (by norm_num)]
    linarith
  · have := (abs_le.1 (binary64_err ((a : ℚ) / 100))).2
    rw [abs_of_nonneg hpos] at this
    have e1 : (a : ℚ) / 100 / 2 ^ 53 < 1 / 100 := by
      rw [div_div, div_lt_div_iff₀ (by norm_num) (by norm_num)]
      linarith
    have e2 : (a : ℚ) / 100 ≤ ((a / 100 : Int) : ℚ) + 99 / 100 := by
      rw [div_le_iff₀ (by norm_num)]; linarith
    linarith

theorem saveAll_saves (visualize : Nat → Nat → Option Exc) :
    ∀ i j n, ∃ k ≤ n, (saveAll visualize i j n).1 = (List.range k).map (fun m => Ev.save i (j + m)) ∧
      ((saveAll visualize i j n).2 = none → k = n) ∧
      (∀ e, (saveAll visualize i j n).2 = some e → 0 < k ∧ visualize i (j + (k - 1)) = some e) := by
  intro i j n
  induction n generalizing j with
  | zero => exact ⟨0, le_refl _, by simp [saveAll], fun _ => rfl, fun e h => by cases h⟩
  | succ n ih =>
    rw [saveAll]
    split
    · rename_i e0 hv
      exact ⟨1, by omega, by simp, fun h => (by cases h), fun e h => (by cases h; exact ⟨by omega, hv⟩)⟩
    · obtain ⟨k, hk, h1, h2, h3⟩ := ih (j + 1)
      refine ⟨k + 1, by omega, ?_, fun h => by rw [h2 h], fun e h => ?_⟩
      rotate_left
      · obtain ⟨g1, g2⟩ := h3 e h
        refine ⟨by omega, ?_⟩
        rw [← g2]; congr 1; omega
      dsimp only
      rw [h1, List.range_succ_eq_map]
      simp only [List.map_cons, List.map_map, Nat.add_zero, List.cons.injEq, true_and]
      apply List.map_congr_left
      intro m _
      simp only [Function.comp, Nat.succ_eq_add_one]
      congr 1
      omega

/-! ## Names -/

theorem pathName_noslash {l : List Char} (h : '/' ∉ l) : pathName l = l := by
  unfold pathName
  rw [List.takeWhile_eq_self_iff.2]
  · simp
  · intro x hx
    simp only [decide_eq_true_eq, ne_eq]
    intro e; subst e
    exact h (by simpa using hx)

theorem pathName_slash (d : List Char) {l : List Char} (h : '/' ∉ l) : pathName (d ++ '/' :: l) = l := by
  unfold pathName
  rw [List.reverse_append, List.reverse_cons, List.append_assoc, List.takeWhile_append_of_pos]
  · simp
  · intro x hx
    simp only [decide_eq_true_eq, ne_eq]
    intro e; subst e
    exact h (by simpa using hx)

/-- An occurrence of a word whose first letter occurs only once in it cannot reach into the next such word. -/
theorem not_prefix_across {c : Char} {r : List Char} (hc : c ∉ r) {x : Char} {b t : List Char} (hb : ¬ (c :: r) <:+: x :: b) :
    ¬ (c :: r) <+: x :: b ++ ((c :: r) ++ t) := by
  intro hp
  by_cases hl : (c :: r).length ≤ (x :: b).length
  · exact hb (List.prefix_of_prefix_length_le hp (List.prefix_append _ _) hl).isInfix
  · have hq : x :: b <+: c :: r := List.prefix_of_prefix_length_le (List.prefix_append _ _) hp (by omega)
    obtain ⟨s, hs⟩ := hq
    have hs0 : s ≠ [] := by
      rintro rfl
      rw [List.append_nil] at hs
      rw [hs] at hl
      omega
    rw [← hs] at hp
    have hp2 : s <+: (x :: b ++ s) ++ t := (List.prefix_append_right_inj _).1 hp
    obtain ⟨y, s', rfl⟩ := List.exists_cons_of_ne_nil hs0
    simp only [List.cons_append, List.cons.injEq] at hs
    have hyx : y = x := by
      obtain ⟨z, hz⟩ := hp2
      simp only [List.cons_append, List.cons.injEq] at hz
      exact hz.1
    apply hc
    rw [← hs.2, ← hs.1, ← hyx]
    simp

theorem before_append {c : Char} {r : List Char} (hc : c ∉ r) (t : List Char) :
    ∀ b : List Char, ¬ (c :: r) <:+: b → before (c :: r) (b ++ ((c :: r) ++ t)) = some b := by
  intro b
  induction b with
  | nil =>
    intro _
    rw [List.nil_append, List.cons_append, before, if_pos]
    exact ⟨t, by simp⟩
  | cons x b ih =>
    intro hb
    rw [List.cons_append, before, if_neg (by simpa using not_prefix_across hc hb), ih]
    · rfl
    · intro h
      exact hb (h.trans (List.suffix_cons x b).isInfix)

theorem before_none {pat : List Char} (hp : pat ≠ []) : ∀ s : List Char, ¬ pat <:+: s → before pat s = none := by
  intro s
  induction s with
  | nil => intro _; rw [before, if_neg hp]
  | cons x s ih =>
    intro h
    rw [before, if_neg (fun hq => h hq.isInfix), ih]
    · rfl
    · intro hq
      exact h (hq.trans (List.suffix_cons x s).isInfix)

theorem before_isSome {pat : List Char} (hp : pat ≠ []) : ∀ s : List Char, pat <:+: s → (before pat s).isSome := by
  intro s
  induction s with
  | nil => intro h; exact absurd (List.eq_nil_of_infix_nil h) hp
  | cons x s ih =>
    intro h
    rw [before]
    split
    · rfl
    · rename_i hn
      rcases List.infix_cons_iff.1 h with h | h
      · exact absurd h hn
      · have := ih h
        simpa using this

theorem beforeLast_append {c : Char} {r : List Char} (hc : c ∉ r) {t : List Char} (ht : ¬ (c :: r) <:+: t) (p : List Char) :
    beforeLast (c :: r) (p ++ ((c :: r) ++ t)) = some p := by
  have key : ∀ n, p.length ≤ n → n ≤ (p ++ ((c :: r) ++ t)).length →
      (List.range (n + 1)).reverse.find? (fun i => decide ((c :: r) <+: (p ++ ((c :: r) ++ t)).drop i)) = some p.length := by
    intro n
    induction n with
    | zero =>
      intro h1 _
      have : p = [] := List.length_eq_zero_iff.1 (by omega)
      subst this
      simp
    | succ n ih =>
      intro h1 h2
      rw [List.range_succ, List.reverse_append, List.reverse_singleton, List.singleton_append, List.find?_cons]
      by_cases he : p.length = n + 1
      · have : (c :: r) <+: (p ++ ((c :: r) ++ t)).drop (n + 1) := by
          rw [← he, List.drop_left]; exact List.prefix_append _ _
        simp [he]
      · have : ¬ (c :: r) <+: (p ++ ((c :: r) ++ t)).drop (n + 1) := by
          intro hq
          rw [List.drop_append, List.drop_eq_nil_of_le (by omega), List.nil_append] at hq
          obtain ⟨k, hk⟩ : ∃ k, n + 1 - p.length = k + 1 := ⟨n - p.length, by omega⟩
          rw [hk, List.cons_append, List.drop_succ_cons] at hq
          by_cases hkr : k < r.length
          · rw [List.drop_append_of_le_length (by omega)] at hq
            rw [List.drop_eq_getElem_cons hkr] at hq
            obtain ⟨z, hz⟩ := hq
            simp only [List.cons_append, List.cons.injEq] at hz
            exact hc (hz.1 ▸ List.getElem_mem hkr)
          · rw [List.drop_append, List.drop_eq_nil_of_le (by omega), List.nil_append] at hq
            exact ht (hq.isInfix.trans (List.drop_suffix _ _).isInfix)
        simp only [this, decide_false]
        exact ih (by omega) (by omega)
  unfold beforeLast
  rw [key _ (by simp) (le_refl _)]
  simp

theorem firstWord_append (ws : Char → Bool) {w t : List Char} (hw : ∀ c ∈ w, ws c = false) (hne : w ≠ [])
    (ht : ∀ c, t.head? = some c → ws c = true) : firstWord ws (w ++ t) = w := by
  unfold firstWord
  obtain ⟨x, w', rfl⟩ := List.exists_cons_of_ne_nil hne
  rw [List.cons_append, List.dropWhile_cons_of_neg (by simp [hw x (by simp)])]
  rw [← List.cons_append, List.takeWhile_append_of_pos (by intro a ha; simp [hw a ha])]
  cases t with
  | nil => simp
  | cons y t => simp [ht y rfl]

/-! ## Unpacking TFRecords -/

theorem write_other {α : Type} (d d' : Sub) (hd : d ≠ d') : ∀ (files : List (Nat × α)) (fs : List ((Sub × Nat) × α)) k a,
    ((d, k), a) ∈ fs → ((d, k), a) ∈ write fs d' files := by
  intro files
  induction files with
  | nil => intro fs k a h; exact h
  | cons f l ih =>
    intro fs k a h
    unfold write
    rw [List.foldl_cons]
    apply ih
    simp only [List.mem_append, List.mem_filter, decide_eq_true_eq]
    exact .inl ⟨h, by simp [hd]⟩

theorem write_keep {α : Type} (d : Sub) : ∀ (files : List (Nat × α)) (fs : List ((Sub × Nat) × α)) k a,
    k ∉ files.map Prod.fst → ((d, k), a) ∈ fs → ((d, k), a) ∈ write fs d files := by
  intro files
  induction files with
  | nil => intro fs k a _ h; exact h
  | cons f l ih =>
    intro fs k a hk h
    simp only [List.map_cons, List.mem_cons, not_or] at hk
    unfold write
    rw [List.foldl_cons]
    apply ih _ _ _ hk.2
    simp only [List.mem_append, List.mem_filter, decide_eq_true_eq]
    exact .inl ⟨h, by simp [hk.1]⟩

theorem write_mem {α : Type} (d : Sub) : ∀ (files : List (Nat × α)) (fs : List ((Sub × Nat) × α)) k a,
    (files.map Prod.fst).Nodup → (k, a) ∈ files → ((d, k), a) ∈ write fs d files := by
  intro files
  induction files with
  | nil => intro fs k a _ h; cases h
  | cons f l ih =>
    intro fs k a hn h
    simp only [List.map_cons, List.nodup_cons] at hn
    unfold write
    rw [List.foldl_cons]
    rcases List.mem_cons.1 h with rfl | h
    · exact write_keep d l _ _ _ hn.1 (by simp)
    · exact ih _ _ _ hn.2 h

end Verif.Scripts
