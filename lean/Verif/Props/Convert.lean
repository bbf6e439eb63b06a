import Verif.Model.Convert
import Verif.Props.SplitCopy
import Mathlib.Tactic.IntervalCases
/-!
# Properties of the packing and of the whole dataset script (C98, C99)
-/

namespace Verif.Convert
open Verif SplitCopy

/-- The flow file `<stem>_flow<ext>` of directory `dir` belongs to a usable triplet with the packed content `x`: both images exist, all
three files can be read and the flow can be resized. -/
structure Usable {F I : Type} (src : Src F I) (dir : List Name) (stem ext : Name) (x : F × I × I) : Prop where
  last : ¬ ∃ a b, ext = a ++ "_flow".toList ++ b
  flow : ∃ f, src.flow dir (stem ++ "_flow".toList ++ ext) = .ok f ∧ src.resize f = .ok x.1
  img1 : src.img dir (stem ++ "_img1.tif".toList) = some (.ok x.2.1)
  img2 : src.img dir (stem ++ "_img2.tif".toList) = some (.ok x.2.2)

/-- `rsplit` at the last "_flow". -/
theorem beforeLast_eq {stem ext : Name} (h : ∀ k, 0 < k → ¬ "_flow".toList <+: ("_flow".toList ++ ext).drop k) :
    Scripts.beforeLast "_flow".toList (stem ++ "_flow".toList ++ ext) = some stem := by
  unfold Scripts.beforeLast
  have hf : (List.range ((stem ++ "_flow".toList ++ ext).length + 1)).reverse.find?
      (fun i => decide ("_flow".toList <+: (stem ++ "_flow".toList ++ ext).drop i)) = some stem.length := by
    rw [List.find?_eq_some_iff_append]
    refine ⟨?_, ?_⟩
    · simp [List.append_assoc]
    · obtain ⟨n, hn⟩ : ∃ n, (stem ++ "_flow".toList ++ ext).length + 1 = stem.length + 1 + n := ⟨("_flow".toList ++ ext).length, by simp; omega⟩
      refine ⟨((List.range n).map (fun i => stem.length + 1 + i)).reverse, (List.range stem.length).reverse, ?_, ?_⟩
      · rw [hn, List.range_add, List.range_succ]
        simp
      · intro i hi
        rw [List.mem_reverse, List.mem_map] at hi
        obtain ⟨j, _, rfl⟩ := hi
        have e : (stem ++ "_flow".toList ++ ext).drop (stem.length + 1 + j) = ("_flow".toList ++ ext).drop (1 + j) := by
          rw [List.append_assoc, show stem.length + 1 + j = stem.length + (1 + j) by omega, ← List.drop_drop, List.drop_left]
        rw [e]
        simpa using h (1 + j) (by omega)
  rw [hf]
  simp [List.append_assoc]

/-- Nothing but the first five characters can overlap with "_flow", and they do not. -/
theorem no_later {ext : Name} (h : ¬ ∃ a b, ext = a ++ "_flow".toList ++ b) :
    ∀ k, 0 < k → ¬ "_flow".toList <+: ("_flow".toList ++ ext).drop k := by
  intro k hk hp
  by_cases h5 : 5 ≤ k
  · have e : ("_flow".toList ++ ext).drop k = ext.drop (k - 5) := by
      obtain ⟨j, rfl⟩ : ∃ j, k = "_flow".toList.length + j := ⟨k - 5, by simp; omega⟩
      rw [← List.drop_drop, List.drop_left]
      congr 1
      simp
    rw [e] at hp
    obtain ⟨b, hb⟩ := hp
    exact h ⟨ext.take (k - 5), b, by rw [List.append_assoc, hb, List.take_append_drop]⟩
  · obtain ⟨b, hb⟩ := hp
    have : ("_flow".toList ++ b).head? = (("_flow".toList ++ ext).drop k).head? := by rw [hb]
    interval_cases k <;> simp at this

theorem stem_of {stem ext : Name} (h : ¬ ∃ a b, ext = a ++ "_flow".toList ++ b) :
    Scripts.beforeLast "_flow".toList (stem ++ "_flow".toList ++ ext) = some stem := beforeLast_eq (no_later h)

/-- A name without "_flow" has nothing before the last one; otherwise it is a stem and an extension. -/
theorem beforeLast_some {s c : Name} (h : Scripts.beforeLast "_flow".toList s = some c) : ∃ ext, s = c ++ "_flow".toList ++ ext ∧
    ¬ ∃ a b, ext = a ++ "_flow".toList ++ b := by
  unfold Scripts.beforeLast at h
  split at h
  · rename_i i hi
    simp only [Option.some.injEq] at h
    rw [List.find?_eq_some_iff_append] at hi
    obtain ⟨hp, as, bs, hs, hno⟩ := hi
    simp only [decide_eq_true_eq] at hp
    obtain ⟨ext, he⟩ := hp
    refine ⟨ext, ?_, ?_⟩
    · rw [← h, List.append_assoc, he, List.take_append_drop]
    · rintro ⟨a, b, rfl⟩
      have hk : i + 5 + a.length ∈ as := by
        have hlen : s.length = (s.take i).length + (s.drop i).length := by rw [← List.length_append, List.take_append_drop]
        rw [← he] at hlen
        have hil : (s.take i).length = i := by
          rw [List.length_take]
          have : (s.drop i).length ≠ 0 := by rw [← he]; simp
          rw [List.length_drop] at this
          omega
        rw [hil] at hlen
        simp only [List.length_append] at hlen
        have hin : i + 5 + a.length ∈ (List.range (s.length + 1)).reverse := by
          rw [List.mem_reverse, List.mem_range]
          have : "_flow".toList.length = 5 := rfl
          omega
        rw [hs] at hin
        rcases List.mem_append.1 hin with hin | hin
        · exact hin
        · exfalso
          -- the list is decreasing: after `i` come smaller numbers
          have hd : List.Pairwise (fun x y => y < x) (as ++ i :: bs) := by
            rw [← hs, List.pairwise_reverse]
            exact List.pairwise_lt_range
          rw [List.pairwise_append] at hd
          have h2 := hd.2.1
          rw [List.pairwise_cons] at h2
          rcases List.mem_cons.1 hin with hin | hin
          · omega
          · have := h2.1 _ hin
            omega
      have := hno _ hk
      simp only [Bool.not_eq_eq_eq_not, Bool.not_true, decide_eq_false_iff_not] at this
      apply this
      rw [show i + 5 + a.length = i + (5 + a.length) by omega, ← List.drop_drop, ← he]
      refine ⟨b, ?_⟩
      rw [show ("_flow".toList ++ (a ++ "_flow".toList ++ b)) = ("_flow".toList ++ a) ++ ("_flow".toList ++ b) by simp [List.append_assoc],
        show 5 + a.length = ("_flow".toList ++ a).length by simp; omega, List.drop_left]
  · simp at h

theorem convertOne_usable {F I : Type} (src : Src F I) (fs : Packs (F × I × I)) {dir : List Name} {stem ext : Name} {x : F × I × I}
    (h : Usable src dir stem ext x) :
    convertOne src fs (dir, stem ++ "_flow".toList ++ ext) = fun q => if q = (dir, stem ++ ".mat".toList) then some x else fs q := by
  obtain ⟨f, h1, h2⟩ := h.flow
  unfold convertOne packTriplet
  simp only []
  rw [stem_of h.last, Option.getD_some, h.img1, h.img2, h1]
  simp only []
  rw [h2]

/-- What the loop body does to a flow file: nothing, or it packs a usable triplet. -/
theorem convertOne_cases {F I : Type} (src : Src F I) (fs : Packs (F × I × I)) (dir : List Name) (name stem ext : Name)
    (hn : name = stem ++ "_flow".toList ++ ext) (hl : ¬ ∃ a b, ext = a ++ "_flow".toList ++ b) :
    (∃ x, Usable src dir stem ext x) ∨ convertOne src fs (dir, name) = fs := by
  subst hn
  by_cases hu : ∃ x, Usable src dir stem ext x
  · exact .inl hu
  · right
    unfold convertOne packTriplet
    simp only []
    rw [stem_of hl, Option.getD_some]
    cases h1 : src.img dir (stem ++ "_img1.tif".toList) with
    | none => rfl
    | some i1 =>
      cases h2 : src.img dir (stem ++ "_img2.tif".toList) with
      | none => rfl
      | some i2 =>
        simp only []
        cases hf : src.flow dir (stem ++ "_flow".toList ++ ext) with
        | error e => rfl
        | ok f =>
          cases i1 with
          | error e => rfl
          | ok a =>
            cases i2 with
            | error e => rfl
            | ok b =>
              simp only []
              cases hr : src.resize f with
              | error e => rfl
              | ok f' => exact absurd ⟨(f', a, b), hl, ⟨f, hf, hr⟩, h1, h2⟩ hu

/-- `glob` only finds names with "_flow." in them. -/
def Found (name : Name) : Prop := ∃ a b, name = a ++ "_flow".toList ++ b

theorem found_split {name : Name} (h : Found name) : ∃ stem ext, name = stem ++ "_flow".toList ++ ext ∧ ¬ ∃ a b, ext = a ++ "_flow".toList ++ b := by
  cases hb : Scripts.beforeLast "_flow".toList name with
  | some c => obtain ⟨ext, h1, h2⟩ := beforeLast_some hb; exact ⟨c, ext, h1, h2⟩
  | none =>
    exfalso
    obtain ⟨a, b, rfl⟩ := h
    unfold Scripts.beforeLast at hb
    split at hb
    · simp at hb
    · rename_i hn
      rw [List.find?_eq_none] at hn
      have := hn a.length (by rw [List.mem_reverse, List.mem_range]; simp; omega)
      simp [List.append_assoc] at this

theorem split_unique {s t e f : Name} (he : ¬ ∃ a b, e = a ++ "_flow".toList ++ b) (hf : ¬ ∃ a b, f = a ++ "_flow".toList ++ b)
    (h : s ++ "_flow".toList ++ e = t ++ "_flow".toList ++ f) : s = t ∧ e = f := by
  have h1 := stem_of (stem := s) he
  rw [h, stem_of hf] at h1
  have := Option.some.inj h1
  subst this
  exact ⟨rfl, by simpa [List.append_assoc] using h⟩

/-- **C98** (partial). In whatever order the flow files are visited and whatever was packed before: if no two usable triplets differ only in
the extension of the flow file, every usable triplet is packed into the file named after it, with its own resized flow and its own two images
in order, and every other packed file is as before — in particular unusable triplets neither stop the script nor leave a file. Missing: two
flow files of the same sample (`C98_refuted`). -/
theorem C98_packs_all_partial {F I : Type} (src : Src F I) (flows : List (List Name × Name)) (hg : ∀ t ∈ flows, Found t.2) (fs : Packs (F × I × I))
    (huniq : ∀ dir stem e e' x x', (dir, stem ++ "_flow".toList ++ e) ∈ flows → (dir, stem ++ "_flow".toList ++ e') ∈ flows →
      Usable src dir stem e x → Usable src dir stem e' x' → e = e') :
    (∀ dir stem ext x, (dir, stem ++ "_flow".toList ++ ext) ∈ flows → Usable src dir stem ext x →
      convert src flows fs (dir, stem ++ ".mat".toList) = some x) ∧
    (∀ dir fname, (¬ ∃ stem ext x, fname = stem ++ ".mat".toList ∧ (dir, stem ++ "_flow".toList ++ ext) ∈ flows ∧ Usable src dir stem ext x) →
      convert src flows fs (dir, fname) = fs (dir, fname)) := by
  induction flows generalizing fs with
  | nil => exact ⟨fun _ _ _ _ h => by simp at h, fun _ _ _ => rfl⟩
  | cons t l ih =>
    obtain ⟨dir0, name0⟩ := t
    obtain ⟨s0, e0, hs0, hl0⟩ := found_split (hg (dir0, name0) List.mem_cons_self)
    simp only [] at hs0
    have hrun : convert src ((dir0, name0) :: l) fs = convert src l (convertOne src fs (dir0, name0)) := rfl
    obtain ⟨i1, i2⟩ := ih (fun t ht => hg t (List.mem_cons_of_mem _ ht)) (convertOne src fs (dir0, name0))
      (fun d s e e' x x' h h' => huniq d s e e' x x' (List.mem_cons_of_mem _ h) (List.mem_cons_of_mem _ h'))
    rw [hrun]
    constructor
    · intro dir stem ext x hm hu
      by_cases hin : (dir, stem ++ "_flow".toList ++ ext) ∈ l
      · exact i1 dir stem ext x hin hu
      · rcases List.mem_cons.1 hm with hm | hm
        · simp only [Prod.mk.injEq] at hm
          obtain ⟨rfl, rfl⟩ := hm
          rw [i2, convertOne_usable src fs hu]
          · exact if_pos rfl
          rintro ⟨stem', ext', x', hst, hm', hu'⟩
          have : stem = stem' := by simpa using hst
          subst this
          have := huniq dir stem ext ext' x x' List.mem_cons_self (List.mem_cons_of_mem _ hm') hu hu'
          subst this
          exact hin hm'
        · exact absurd hm hin
    · intro dir fname hno
      rw [i2 dir fname (fun ⟨s, e, x, h1, h2, h3⟩ => hno ⟨s, e, x, h1, List.mem_cons_of_mem _ h2, h3⟩)]
      rcases convertOne_cases src fs dir0 name0 s0 e0 hs0 hl0 with ⟨x, hx⟩ | hsame
      · subst hs0
        rw [convertOne_usable src fs hx]
        refine if_neg ?_
        intro heq
        simp only [Prod.mk.injEq] at heq
        obtain ⟨rfl, rfl⟩ := heq
        exact hno ⟨s0, e0, x, rfl, List.mem_cons_self, hx⟩
      · rw [hsame]

/-- Raw files for the examples: a triplet with two flow files, one with an unreadable flow and one without its second image. -/
def demo : Src Nat Nat where
  flow := fun _ n => if n = "a_flow.flo".toList then .ok 1 else if n = "a_flow.mat".toList then .ok 2
    else if n = "b_flow.flo".toList then .error .valueError else .ok 3
  img := fun _ n => if n = "a_img1.tif".toList then some (.ok 10) else if n = "a_img2.tif".toList then some (.ok 20)
    else if n = "b_img1.tif".toList then some (.ok 30) else if n = "b_img2.tif".toList then some (.ok 40)
    else if n = "c_img1.tif".toList then some (.ok 50) else none
  resize := fun f => .ok (100 * f)

/-- **C98 is false** for two flow files of the same sample: the flow of the first one is not in the packed dataset. -/
theorem C98_refuted : Usable demo [] "a".toList ".flo".toList (100, 10, 20) ∧ Usable demo [] "a".toList ".mat".toList (200, 10, 20) ∧
    convert demo [([], "a_flow.flo".toList), ([], "a_flow.mat".toList)] (fun _ => none) ([], "a.mat".toList) = some (200, 10, 20) := by
  refine ⟨⟨?_, ⟨1, by decide +kernel, rfl⟩, by rfl, by rfl⟩, ⟨?_, ⟨2, by rfl, rfl⟩, by rfl, by rfl⟩, by decide +kernel⟩ <;>
  · rintro ⟨a, b, h⟩
    have := congrArg List.length h
    simp at this
    omega

example : convert demo [([], "a_flow.flo".toList), ([], "b_flow.flo".toList), ([], "c_flow.flo".toList)] (fun _ => none) ([], "a.mat".toList) = some (100, 10, 20) ∧
    convert demo [([], "a_flow.flo".toList), ([], "b_flow.flo".toList), ([], "c_flow.flo".toList)] (fun _ => none) ([], "b.mat".toList) = none ∧
    convert demo [([], "a_flow.flo".toList), ([], "b_flow.flo".toList), ([], "c_flow.flo".toList)] (fun _ => none) ([], "c.mat".toList) = none := by
  decide +kernel

/-! ## C99: the whole script -/

/-- `rglob("*.mat")` of the packed directory: every packed file once, in any order. -/
structure Lists {α : Type} (packed : List (Packed α)) (fs : Packs α) : Prop where
  nodup : (packed.map (fun q => (q.dir, q.name))).Nodup
  mem : ∀ d f x, (∃ q ∈ packed, q.dir = d ∧ q.name = f ∧ q.content = x) ↔ fs (d, f) = some x

/-- **C99** (partial). Starting from empty directories, whatever names the lists of the splits have, if no two usable triplets differ only in
the extension of the flow file: a usable triplet is found after packing and splitting, complete and with its own data, in exactly the splits
whose list names it, and the splits hold nothing but usable triplets that their lists name. -/
theorem C99_script_partial {F I : Type} (digit : Char → Bool) (hu : digit '_' = false) (src : Src F I) (flows : List (List Name × Name))
    (hg : ∀ t ∈ flows, Found t.2)
    (huniq : ∀ dir stem e e' x x', (dir, stem ++ "_flow".toList ++ e) ∈ flows → (dir, stem ++ "_flow".toList ++ e') ∈ flows →
      Usable src dir stem e x → Usable src dir stem e' x' → e = e')
    (packed : List (Packed (F × I × I))) (hp : Lists packed (convert src flows (fun _ => none)))
    (sets : List (List Name)) (s : Nat) (hs : s < sets.length) :
    (∀ dir stem ext x, (dir, stem ++ "_flow".toList ++ ext) ∈ flows → Usable src dir stem ext x → stem ++ ".mat".toList ∈ sets.getD s [] →
      ∃ sub, Place digit (⟨dir, stem ++ ".mat".toList, x⟩ : Packed (F × I × I)) sub ∧
        perform digit sets packed (fun _ => none) (s, sub, stem ++ ".mat".toList) = some x) ∧
    (∀ sub fname x, perform digit sets packed (fun _ => none) (s, sub, fname) = some x →
      ∃ dir stem ext, fname = stem ++ ".mat".toList ∧ fname ∈ sets.getD s [] ∧ (dir, stem ++ "_flow".toList ++ ext) ∈ flows ∧
        Usable src dir stem ext x ∧ Place digit (⟨dir, fname, x⟩ : Packed (F × I × I)) sub) := by
  obtain ⟨hc1, hc2⟩ := C98_packs_all_partial src flows hg (fun _ => none) huniq
  obtain ⟨hs1, _, hs3⟩ := C96_copies_exactly digit hu sets packed hp.nodup (fun _ => none) s hs
  constructor
  · intro dir stem ext x hm hus hin
    obtain ⟨q, hq, rfl, hname, rfl⟩ := (hp.mem dir (stem ++ ".mat".toList) x).2 (hc1 dir stem ext x hm hus)
    obtain ⟨sub, hpl, hr⟩ := hs1 q hq (by rw [hname]; exact hin)
    rw [← hname]
    exact ⟨sub, hpl, hr⟩
  · intro sub fname x hx
    by_cases hq : ∃ q ∈ packed, q.name = fname ∧ fname ∈ sets.getD s [] ∧ Place digit q sub
    · obtain ⟨q, hqm, rfl, hin, hpl⟩ := hq
      obtain ⟨sub', hpl', hr⟩ := hs1 q hqm hin
      have : sub' = sub := by rw [place_iff hu] at hpl hpl'; rw [hpl, hpl']
      subst this
      rw [hr] at hx
      have hx := Option.some.inj hx
      have hfs := (hp.mem q.dir q.name q.content).1 ⟨q, hqm, rfl, rfl, rfl⟩
      by_cases hex : ∃ stem ext x, q.name = stem ++ ".mat".toList ∧ (q.dir, stem ++ "_flow".toList ++ ext) ∈ flows ∧ Usable src q.dir stem ext x
      · obtain ⟨stem, ext, x', h1, h2, h3⟩ := hex
        have := hc1 q.dir stem ext x' h2 h3
        rw [← h1, hfs] at this
        have := Option.some.inj this
        refine ⟨q.dir, stem, ext, h1, hin, h2, ?_, ?_⟩
        · rw [← hx, this]; exact h3
        · exact hpl
      · rw [hc2 q.dir q.name hex] at hfs
        simp at hfs
    · rw [hs3 sub fname hq] at hx
      simp at hx

/-- The demo of C98 meets the hypotheses of C99: one usable triplet, listed for the first split. -/
example : Lists [⟨[], "a.mat".toList, (100, 10, 20)⟩]
      (convert demo [([], "a_flow.flo".toList), ([], "b_flow.flo".toList)] (fun _ => none)) ∧
    Found "a_flow.flo".toList ∧ Found "b_flow.flo".toList ∧
    perform ascii [["a.mat".toList], []] [⟨[], "a.mat".toList, (100, 10, 20)⟩] (fun _ => none) (0, [], "a.mat".toList) = some (100, 10, 20) := by
  refine ⟨⟨by simp, ?_⟩, ⟨"a".toList, ".flo".toList, rfl⟩, ⟨"b".toList, ".flo".toList, rfl⟩, by decide +kernel⟩
  intro d f x
  have e : convert demo [([], "a_flow.flo".toList), ([], "b_flow.flo".toList)] (fun _ => none) =
      fun q => if q = ([], "a.mat".toList) then some (100, 10, 20) else none := by rfl
  rw [e]
  constructor
  · rintro ⟨q, hq, rfl, rfl, rfl⟩
    rw [List.mem_singleton] at hq
    subst hq
    simp
  · intro h
    beta_reduce at h
    split at h
    · rename_i h2
      simp only [Prod.mk.injEq] at h2
      obtain ⟨rfl, rfl⟩ := h2
      exact ⟨_, List.mem_singleton.2 rfl, rfl, rfl, Option.some.inj h⟩
    · simp at h

end Verif.Convert
