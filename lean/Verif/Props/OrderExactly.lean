import Verif.Props.FormatInit
/-!
# C88, exactly: when a directory of numbered flows is served in the order of the numbers
-/

namespace Verif.FormatInit
open Verif BaseInit

open Formats in
private theorem foldl_pow (l : List Char) : ∀ (acc : Nat), (∀ c ∈ l, isDigit c = true) →
    acc * 10 ^ l.length ≤ l.foldl (fun acc c => 10 * acc + (c.toNat - '0'.toNat)) acc ∧
      l.foldl (fun acc c => 10 * acc + (c.toNat - '0'.toNat)) acc < (acc + 1) * 10 ^ l.length := by
  induction l with
  | nil => intro acc _; simp
  | cons c l ih =>
    intro acc h
    obtain ⟨h1, h2⟩ := ih (10 * acc + (c.toNat - '0'.toNat)) (fun x hx => h x (List.mem_cons_of_mem _ hx))
    have hc := h c List.mem_cons_self
    simp only [isDigit, decide_eq_true_eq] at hc
    have h9 : c.toNat ≤ '9'.toNat := hc.2
    have e0 : '0'.toNat = 48 := rfl
    have e9 : '9'.toNat = 57 := rfl
    have hle : 10 * acc + (c.toNat - '0'.toNat) + 1 ≤ 10 * (acc + 1) := by omega
    simp only [List.foldl_cons, List.length_cons, pow_succ']
    refine ⟨?_, ?_⟩
    · calc acc * (10 * 10 ^ l.length) = (10 * acc) * 10 ^ l.length := by ring
        _ ≤ (10 * acc + (c.toNat - '0'.toNat)) * 10 ^ l.length := Nat.mul_le_mul_right _ (by omega)
        _ ≤ _ := h1
    · calc _ < (10 * acc + (c.toNat - '0'.toNat) + 1) * 10 ^ l.length := h2
        _ ≤ (10 * (acc + 1)) * 10 ^ l.length := Nat.mul_le_mul_right _ hle
        _ = _ := by ring

open Formats in
/-- The order of the names of two numbers, the first being spelled with at most as many digits as the second. -/
private theorem spelled_lt (s : List Char) : ∀ (a b : List Char) (acc : Nat), a.length ≤ b.length → (∀ c ∈ a, isDigit c = true) →
    (∀ c ∈ b, isDigit c = true) →
    (a ++ '.' :: s < b ++ '.' :: s ↔ a ≠ b ∧ a.foldl (fun acc c => 10 * acc + (c.toNat - '0'.toNat)) acc ≤
      (b.take a.length).foldl (fun acc c => 10 * acc + (c.toNat - '0'.toNat)) acc)
  | [], [], acc, _, _, _ => by simp
  | [], d :: b, acc, _, _, hb => by
    have hd := hb d List.mem_cons_self
    simp only [isDigit, decide_eq_true_eq] at hd
    have h0 : '0'.toNat ≤ d.toNat := hd.1
    have : '.' < d := by
      show '.'.toNat < d.toNat
      have e0 : '0'.toNat = 48 := rfl
      have e1 : '.'.toNat = 46 := rfl
      omega
    simp only [List.nil_append, List.cons_append, List.cons_lt_cons_iff, this, true_or, List.length_nil, List.take_zero, List.foldl_nil, le_refl,
      and_true, true_iff]
    simp
  | c :: a, [], _, hl, _, _ => by simp at hl
  | c :: a, d :: b, acc, hl, ha, hb => by
    have hl' : a.length ≤ b.length := by simpa using hl
    have ha' : ∀ x ∈ a, isDigit x = true := fun x hx => ha x (List.mem_cons_of_mem _ hx)
    have hb' : ∀ x ∈ b, isDigit x = true := fun x hx => hb x (List.mem_cons_of_mem _ hx)
    have hbt : ∀ x ∈ b.take a.length, isDigit x = true := fun x hx => hb' x (List.mem_of_mem_take hx)
    have hlen : a.length = (b.take a.length).length := by simp [hl']
    have hc := ha c List.mem_cons_self
    have hd := hb d List.mem_cons_self
    simp only [isDigit, decide_eq_true_eq] at hc hd
    have c0 : '0'.toNat ≤ c.toNat := hc.1
    have d0 : '0'.toNat ≤ d.toNat := hd.1
    simp only [List.cons_append, List.cons_lt_cons_iff, List.length_cons, List.take_succ_cons, List.foldl_cons]
    rcases lt_trichotomy c d with h | h | h
    · have hcd : c.toNat < d.toNat := h
      have := digits_step (acc := 10 * acc + (c.toNat - '0'.toNat)) (acc' := 10 * acc + (d.toNat - '0'.toNat)) (by omega) a (b.take a.length) hlen ha' hbt
      simp only [h, true_or, true_iff]
      exact ⟨fun e => absurd (List.cons.inj e).1 (ne_of_lt h), this.le⟩
    · subst h
      simp only [lt_irrefl, false_or, true_and]
      rw [spelled_lt s a b (10 * acc + (c.toNat - '0'.toNat)) hl' ha' hb']
      simp
    · have hcd : d.toNat < c.toNat := h
      have := digits_step (acc := 10 * acc + (d.toNat - '0'.toNat)) (acc' := 10 * acc + (c.toNat - '0'.toNat)) (by omega) (b.take a.length) a hlen.symm hbt ha'
      constructor
      · rintro (h' | ⟨e, _⟩)
        · exact absurd h' (lt_asymm h)
        · exact absurd e (ne_of_gt h)
      · rintro ⟨_, h'⟩
        omega

open Formats in
/-- Of two different spellings, the one with at most as many digits comes first iff its number, filled up with zeros, is at most the other number. -/
private theorem name_lt (s a b : List Char) (hl : a.length ≤ b.length) (ha : ∀ c ∈ a, isDigit c = true) (hb : ∀ c ∈ b, isDigit c = true) :
    a ++ '.' :: s < b ++ '.' :: s ↔ a ≠ b ∧ digitsValue a * 10 ^ (b.length - a.length) ≤ digitsValue b := by
  rw [spelled_lt s a b 0 hl ha hb]
  refine and_congr Iff.rfl ?_
  obtain ⟨h1, h2⟩ := foldl_pow (b.drop a.length) ((b.take a.length).foldl (fun acc c => 10 * acc + (c.toNat - '0'.toNat)) 0)
    (fun c hc => hb c (List.mem_of_mem_drop hc))
  rw [← List.foldl_append, List.take_append_drop, List.length_drop] at h1 h2
  unfold digitsValue
  constructor
  · intro h
    exact le_trans (Nat.mul_le_mul_right _ h) h1
  · intro h
    have := lt_of_le_of_lt h h2
    have := lt_of_mul_lt_mul_right this (Nat.zero_le _)
    omega

/-- **C88, exactly**: a directory of files `flow_<t>.npy` is served in the order of the numbers if and only if there are no two of them of which the
smaller number, filled up with zeros to as many digits as the larger is written with, exceeds the larger (as 2, filled up to 20, exceeds 10). -/
theorem C88_exactly (fs : FS) (d : String) (hd : fs.isDir d = true) (hnd : (fs.glob d).Nodup) (number : String → List Char)
    (hname : ∀ p ∈ fs.glob d, p.toList = d.toList ++ ("/flow_".toList ++ (number p ++ ".npy".toList)) ∧
      ∀ c ∈ number p, Formats.isDigit c = true)
    (r : Bool) (lp : Bool) (fl : List String) (h : init fs (.list [some d]) (.bool r) (.bool lp) = .ok (fl, r, lp)) :
    fl.Perm (fs.glob d) ∧
    (fl.Pairwise (fun p q => Formats.digitsValue (number p) ≤ Formats.digitsValue (number q)) ↔
      ∀ p ∈ fs.glob d, ∀ q ∈ fs.glob d, Formats.digitsValue (number p) < Formats.digitsValue (number q) →
        Formats.digitsValue (number p) * 10 ^ ((number q).length - (number p).length) ≤ Formats.digitsValue (number q)) := by
  obtain ⟨_, _, l, h3, h4, _, _⟩ := ((C10_constructor_accepts fs _ _ _).1 _ _ _).mp h
  simp only [Val.list.injEq] at h3
  have : l = [d] := by
    have : [d].map some = l.map some := h3
    exact (List.map_injective_iff.mpr (Option.some_injective _) this).symm
  subst this
  cases h4 with
  | file h' => rw [hd] at h'; simp at h'
  | dir found h' hperm hsorted t =>
    cases t
    rw [List.append_nil]
    refine ⟨hperm, ?_⟩
    have hn : found.Nodup := hperm.nodup_iff.mpr hnd
    have hlt : ∀ p ∈ fs.glob d, ∀ q ∈ fs.glob d, p < q → number p ++ '.' :: "npy".toList < number q ++ '.' :: "npy".toList := by
      intro p hp q hq hpq
      have hlt' : p.toList < q.toList := String.lt_iff_toList_lt.mp hpq
      rw [(hname p hp).1, (hname q hq).1] at hlt'
      exact prefix_lt _ (prefix_lt _ hlt')
    constructor
    · intro hord p hp q hq hpq
      obtain ⟨i, hi, ei⟩ := List.mem_iff_getElem.mp (hperm.mem_iff.mpr hp)
      obtain ⟨j, hj, ej⟩ := List.mem_iff_getElem.mp (hperm.mem_iff.mpr hq)
      rcases Nat.lt_trichotomy i j with hij | rfl | hij
      · have hle := List.pairwise_iff_getElem.mp hsorted i j hi hj hij
        rw [ei, ej] at hle
        have hne : p ≠ q := by rintro rfl; omega
        have := hlt p hp q hq (lt_of_le_of_ne hle hne)
        rcases Nat.le_total (number p).length (number q).length with hl | hl
        · exact ((name_lt _ _ _ hl (hname p hp).2 (hname q hq).2).mp this).2
        · rw [Nat.sub_eq_zero_of_le hl]
          simpa using hpq.le
      · rw [ei] at ej; subst ej; omega
      · have := List.pairwise_iff_getElem.mp hord j i hj hi hij
        rw [ei, ej] at this
        omega
    · intro hall
      refine List.Pairwise.imp_of_mem ?_ (hsorted.and hn)
      intro p q hp hq ⟨hle, hne⟩
      have hp' := hperm.mem_iff.mp hp
      have hq' := hperm.mem_iff.mp hq
      by_contra hcon
      have hqp : Formats.digitsValue (number q) < Formats.digitsValue (number p) := by omega
      have hs := hlt p hp' q hq' (lt_of_le_of_ne hle hne)
      rcases Nat.le_total (number p).length (number q).length with hl | hl
      · have := ((name_lt _ _ _ hl (hname p hp').2 (hname q hq').2).mp hs).2
        have h1 : Formats.digitsValue (number p) * 1 ≤ Formats.digitsValue (number p) * 10 ^ ((number q).length - (number p).length) :=
          Nat.mul_le_mul_left _ (Nat.pos_of_ne_zero (by simp))
        omega
      · have hne' : number q ≠ number p := fun e => by rw [e] at hqp; omega
        have := (name_lt "npy".toList _ _ hl (hname q hq').2 (hname p hp').2).mpr ⟨hne', hall q hq' p hp' hqp⟩
        exact absurd this (lt_asymm hs)

/-- Numbers 1, 10 and 100 are served in order although they have different numbers of digits; 2 and 10 are not. -/
example : (1 * 10 ^ 1 ≤ 10 ∧ 1 * 10 ^ 2 ≤ 100 ∧ 10 * 10 ^ 1 ≤ 100) ∧ ¬ 2 * 10 ^ 1 ≤ 10 := by decide

/-- The hypotheses are met, and the numbers of different lengths come in order. -/
example :
    let fs : FS := ⟨fun p => p == "d", fun p => ["d/flow_10.npy", "d/flow_1.npy"].contains p, fun _ => ["d/flow_10.npy", "d/flow_1.npy"]⟩
    init fs (.list [some "d"]) (.bool false) (.bool false) = .ok (["d/flow_1.npy", "d/flow_10.npy"], false, false) ∧
    ∀ p ∈ fs.glob "d", p.toList = "d".toList ++ ("/flow_".toList ++ ((p.toList.drop 7).take (p.length - 11) ++ ".npy".toList)) ∧
      ∀ c ∈ (p.toList.drop 7).take (p.length - 11), Formats.isDigit c = true :=
  ⟨((C10_constructor_accepts _ _ _ _).1 _ _ _).mpr ⟨rfl, rfl, ["d"], rfl,
    .dir ["d/flow_1.npy", "d/flow_10.npy"] (by decide +kernel) (List.Perm.swap _ _ _) (by decide +kernel) .nil, by simp, by decide +kernel⟩,
    by decide +kernel⟩

end Verif.FormatInit
