import Verif.Props.Scripts
import Verif.Props.Convert
/-!
# Exactly when a sample is in one split (C77), and which flow file of a sample is packed (C98)
-/

namespace Verif.Scripts
open Verif

/-- **C77** exactly, for any official list: a packed file is copied to those splits of which a line is reduced to its name; so every listed file is copied to exactly one split if and only
if no two lines that are reduced to the same name are in different splits. -/
theorem C77_exactly (ws : Char → Bool) (r0 rv rt : Int) (h0 : 0 ≤ r0) (hv : 0 ≤ rv) (ht : 0 ≤ rt)
    (h : ratiosOk [r0, rv, rt] = true) (content : List Char) (hlen : (readList ws content).length * 100 < 2 ^ 53)
    (shuffled : List (List Char)) (hp : shuffled.Perm (readList ws content)) :
    let s := splits binary64 rv rt shuffled
    let parts := [s.train, s.val, s.tune]
    (∀ fname (i : Nat), i ∈ assigned (nameSets ws rv rt shuffled) fname ↔ ∃ part, parts[i]? = some part ∧ ∃ line ∈ part, fname = core ws line ++ ".mat".toList) ∧
    ((∀ line ∈ readList ws content, ∃ i, assigned (nameSets ws rv rt shuffled) (core ws line ++ ".mat".toList) = [i]) ↔
      ∀ (i j : Nat) p q, parts[i]? = some p → parts[j]? = some q → ∀ line ∈ p, ∀ line' ∈ q, core ws line = core ws line' → i = j) := by
  obtain ⟨hperm, _, _⟩ := C75_partition_partial r0 rv rt h0 hv ht h _ _ hlen hp
  dsimp only
  unfold nameSets
  generalize hs : splits binary64 rv rt shuffled = s at hperm
  have rd : ∀ l : List (List Char), (∀ x ∈ l, x ∈ s.train ++ s.val ++ s.tune) → readList ws (writeList l) = l := by
    intro l hl
    exact C76_read_items_survive ws content l (fun x hx => hperm.subset (hl x hx))
  have e1 : splitNames ws (writeList s.train) = s.train.map (fun line => core ws line ++ ".mat".toList) := by
    unfold splitNames; rw [rd _ (fun x hx => by simp [hx])]
  have e2 : splitNames ws (writeList s.val) = s.val.map (fun line => core ws line ++ ".mat".toList) := by
    unfold splitNames; rw [rd _ (fun x hx => by simp [hx])]
  have e3 : splitNames ws (writeList s.tune) = s.tune.map (fun line => core ws line ++ ".mat".toList) := by
    unfold splitNames; rw [rd _ (fun x hx => by simp [hx])]
  rw [e1, e2, e3]
  have hset : [s.train.map (fun line => core ws line ++ ".mat".toList), s.val.map (fun line => core ws line ++ ".mat".toList),
      s.tune.map (fun line => core ws line ++ ".mat".toList)] = [s.train, s.val, s.tune].map (List.map (fun line => core ws line ++ ".mat".toList)) := rfl
  rw [hset]
  have hmem : ∀ x, x ∈ readList ws content ↔ ∃ p ∈ [s.train, s.val, s.tune], x ∈ p := by
    intro x
    rw [← hperm.mem_iff]
    simp
  generalize [s.train, s.val, s.tune] = parts at hmem
  have key : ∀ fname i, i ∈ assigned (parts.map (List.map (fun line => core ws line ++ ".mat".toList))) fname ↔
      ∃ part, parts[i]? = some part ∧ ∃ line ∈ part, fname = core ws line ++ ".mat".toList := by
    intro fname i
    unfold assigned
    rw [List.mem_filter, List.mem_range, List.length_map, List.contains_iff_mem, List.getD_eq_getElem?_getD, List.getElem?_map]
    constructor
    · rintro ⟨hi, hm⟩
      rw [List.getElem?_eq_getElem hi, Option.map_some, Option.getD_some, List.mem_map] at hm
      obtain ⟨line, hl, e⟩ := hm
      exact ⟨parts[i], List.getElem?_eq_getElem hi, line, hl, e.symm⟩
    · rintro ⟨part, hpart, line, hl, e⟩
      refine ⟨(List.getElem?_eq_some_iff.1 hpart).1, ?_⟩
      rw [hpart, Option.map_some, Option.getD_some, List.mem_map]
      exact ⟨line, hl, e.symm⟩
  refine ⟨key, fun hall i j p q hi hj line hl line' hl' e => ?_, fun hone line hl => ?_⟩
  · obtain ⟨n, hn⟩ := hall line ((hmem _).2 ⟨p, List.mem_of_getElem? hi, hl⟩)
    have m1 := (key (core ws line ++ ".mat".toList) i).2 ⟨p, hi, line, hl, rfl⟩
    have m2 := (key (core ws line ++ ".mat".toList) j).2 ⟨q, hj, line', hl', by rw [e]⟩
    rw [hn, List.mem_singleton] at m1 m2
    omega
  · obtain ⟨p, hp, hlp⟩ := (hmem _).1 hl
    obtain ⟨i, hi⟩ := List.mem_iff_getElem?.1 hp
    have m1 := (key (core ws line ++ ".mat".toList) i).2 ⟨p, hi, line, hlp, rfl⟩
    have hnd : (assigned (parts.map (List.map (fun line => core ws line ++ ".mat".toList))) (core ws line ++ ".mat".toList)).Nodup :=
      List.Nodup.filter _ List.nodup_range
    refine ⟨i, ?_⟩
    have huniq : ∀ j ∈ assigned (parts.map (List.map (fun line => core ws line ++ ".mat".toList))) (core ws line ++ ".mat".toList), j = i := by
      intro j hj
      obtain ⟨q, hq, line', hl', e⟩ := (key _ _).1 hj
      exact hone j i q p hq hi line' hl' line hlp (by simpa using e.symm)
    generalize assigned (parts.map (List.map (fun line => core ws line ++ ".mat".toList))) (core ws line ++ ".mat".toList) = L at *
    match L, m1, hnd, huniq with
    | [a], _, _, hu => rw [hu a (by simp)]
    | a :: b :: _, _, hnd, hu =>
      have := hu a (by simp)
      have := hu b (by simp)
      simp_all

/-- The list of `C77_refuted`: both lines are reduced to `a`, and they are in different splits; with the first ratio of a hundred they are in the same one. -/
example : (readList demoWs "d/a_flow.flo\ne/a_flow.flo\n".toList).map (core demoWs) = ["a".toList, "a".toList] ∧
    assigned (nameSets demoWs 0 50 (readList demoWs "d/a_flow.flo\ne/a_flow.flo\n".toList)) "a.mat".toList = [0, 2] ∧
    assigned (nameSets demoWs 0 0 (readList demoWs "d/a_flow.flo\ne/a_flow.flo\n".toList)) "a.mat".toList = [0] := by decide +kernel

end Verif.Scripts

namespace Verif.Convert
open Verif SplitCopy

/-- **C98** exactly, for any flow files: the packed file of a sample holds the last of its usable triplets, in the order in which the flow files are visited, or what it held before if there is
none. -/
theorem C98_exactly {F I : Type} (src : Src F I) (flows : List (List Name × Name)) (hg : ∀ t ∈ flows, Found t.2) (fs : Packs (F × I × I)) (dir : List Name) (stem : Name) (x : F × I × I) :
    convert src flows fs (dir, stem ++ ".mat".toList) = some x ↔
      (∃ earlier ext later, flows = earlier ++ (dir, stem ++ "_flow".toList ++ ext) :: later ∧ Usable src dir stem ext x ∧
        ∀ ext' x', (dir, stem ++ "_flow".toList ++ ext') ∈ later → ¬ Usable src dir stem ext' x') ∨
      ((∀ ext' x', (dir, stem ++ "_flow".toList ++ ext') ∈ flows → ¬ Usable src dir stem ext' x') ∧ fs (dir, stem ++ ".mat".toList) = some x) := by
  induction flows using List.reverseRecOn with
  | nil =>
    constructor
    · exact fun h => .inr ⟨by simp, h⟩
    · rintro (⟨_, _, _, h, _⟩ | ⟨_, h⟩)
      · simp at h
      · exact h
  | append_singleton l t ih =>
    obtain ⟨dir0, name0⟩ := t
    specialize ih (fun t ht => hg t (List.mem_append_left _ ht))
    have hrun : convert src (l ++ [(dir0, name0)]) fs = convertOne src (convert src l fs) (dir0, name0) := by
      unfold convert
      rw [List.foldl_append]
      rfl
    obtain ⟨s0, e0, hs0, hl0⟩ := found_split (hg (dir0, name0) (by simp))
    simp only [] at hs0
    subst hs0
    rw [hrun]
    by_cases hmine : dir0 = dir ∧ s0 = stem ∧ ∃ y, Usable src dir0 s0 e0 y
    · obtain ⟨rfl, rfl, y, hy⟩ := hmine
      rw [convertOne_usable src _ hy]
      simp only [if_pos]
      constructor
      · intro h
        obtain rfl := Option.some.inj h
        exact .inl ⟨l, e0, [], rfl, hy, by simp⟩
      · rintro (⟨earlier, ext, later, h1, h2, h3⟩ | ⟨h1, _⟩)
        · rcases List.eq_nil_or_concat later with rfl | ⟨later', t', rfl⟩
          · obtain ⟨_, e2⟩ := List.append_inj' h1 rfl
            simp only [List.cons.injEq, and_true, Prod.mk.injEq, true_and] at e2
            obtain ⟨_, rfl⟩ := split_unique hl0 h2.last e2
            obtain ⟨f, a1, a2⟩ := hy.flow
            obtain ⟨f', b1, b2⟩ := h2.flow
            rw [a1] at b1
            obtain rfl := Except.ok.inj b1
            rw [a2] at b2
            have c1 := hy.img1
            have c2 := hy.img2
            rw [h2.img1] at c1
            rw [h2.img2] at c2
            simp only [Option.some.injEq, Except.ok.injEq] at c1 c2 b2
            obtain ⟨y1, y2, y3⟩ := y
            obtain ⟨x1, x2, x3⟩ := x
            simp only at c1 c2 b2
            rw [b2, c1, c2]
          · rw [List.concat_eq_append] at h1 h3
            have h1' : l ++ [(dir0, s0 ++ "_flow".toList ++ e0)] = (earlier ++ (dir0, s0 ++ "_flow".toList ++ ext) :: later') ++ [t'] := by simpa using h1
            obtain ⟨_, e2⟩ := List.append_inj' h1' rfl
            simp only [List.cons.injEq, and_true] at e2
            exact absurd hy (h3 e0 y (by rw [e2]; simp))
        · exact absurd hy (h1 e0 y (by simp))
    · have hsame : convertOne src (convert src l fs) (dir0, s0 ++ "_flow".toList ++ e0) (dir, stem ++ ".mat".toList) = convert src l fs (dir, stem ++ ".mat".toList) := by
        rcases convertOne_cases src (convert src l fs) dir0 _ s0 e0 rfl hl0 with ⟨y, hy⟩ | h
        · rw [convertOne_usable src _ hy]
          refine if_neg ?_
          intro heq
          simp only [Prod.mk.injEq, List.append_cancel_right_eq] at heq
          exact hmine ⟨heq.1.symm, heq.2.symm, y, hy⟩
        · rw [h]
      have hnot : ∀ ext' x', (dir, stem ++ "_flow".toList ++ ext') = (dir0, s0 ++ "_flow".toList ++ e0) → ¬ Usable src dir stem ext' x' := by
        intro ext' x' he hu
        simp only [Prod.mk.injEq] at he
        obtain ⟨rfl, he⟩ := he
        obtain ⟨rfl, rfl⟩ := split_unique hu.last hl0 he
        exact hmine ⟨rfl, rfl, x', hu⟩
      rw [hsame, ih]
      constructor
      · rintro (⟨earlier, ext, later, rfl, h2, h3⟩ | ⟨h1, h2⟩)
        · refine .inl ⟨earlier, ext, later ++ [(dir0, s0 ++ "_flow".toList ++ e0)], by simp, h2, fun ext' x' hm => ?_⟩
          rcases List.mem_append.1 hm with h | h
          · exact h3 ext' x' h
          · exact hnot ext' x' (List.mem_singleton.1 h)
        · refine .inr ⟨fun ext' x' hm => ?_, h2⟩
          rcases List.mem_append.1 hm with h | h
          · exact h1 ext' x' h
          · exact hnot ext' x' (List.mem_singleton.1 h)
      · rintro (⟨earlier, ext, later, h1, h2, h3⟩ | ⟨h1, h2⟩)
        · rcases List.eq_nil_or_concat later with rfl | ⟨later', t', rfl⟩
          · obtain ⟨_, e2⟩ := List.append_inj' h1 rfl
            simp only [List.cons.injEq, and_true] at e2
            exact absurd h2 (hnot ext x e2.symm)
          · rw [List.concat_eq_append] at h1 h3
            have h1' : l ++ [(dir0, s0 ++ "_flow".toList ++ e0)] = (earlier ++ (dir, stem ++ "_flow".toList ++ ext) :: later') ++ [t'] := by simpa using h1
            obtain ⟨rfl, _⟩ := List.append_inj' h1' rfl
            exact .inl ⟨earlier, ext, later', rfl, h2, fun ext' x' hm => h3 ext' x' (List.mem_append_left _ hm)⟩
        · exact .inr ⟨fun ext' x' hm => h1 ext' x' (List.mem_append_left _ hm), h2⟩

/-- The last of two usable triplets, followed by one that is not usable. -/
example : convert demo [([], "a_flow.mat".toList), ([], "a_flow.flo".toList), ([], "b_flow.flo".toList)] (fun _ => none) ([], "a.mat".toList) = some (100, 10, 20) ∧
    convert demo [([], "a_flow.flo".toList), ([], "a_flow.mat".toList), ([], "b_flow.flo".toList)] (fun _ => none) ([], "a.mat".toList) = some (200, 10, 20) := by decide +kernel

end Verif.Convert
