import Verif.Proofs.Base
import Verif.Proofs.Arr
/-!
# Lemmas about `get_batch`: assembling a batch, sequences of batches
-/

namespace Verif.Base
open Verif
variable {V D Key : Type}

theorem filterMap_id_of_all {α : Type} : ∀ (l : List (Option α)), l.all Option.isSome = true →
    (l.filterMap id).length = l.length ∧ ∀ i (h : i < l.length) (h' : i < (l.filterMap id).length),
      l[i] = some ((l.filterMap id)[i])
  | [], _ => by simp
  | none :: l, h => by simp at h
  | some a :: l, h => by
    have ih := filterMap_id_of_all l (by simpa using h)
    constructor
    · show (a :: l.filterMap id).length = _
      rw [List.length_cons, List.length_cons, ih.1]
    · intro i hi hi'
      cases i with
      | zero => simp
      | succ i => simpa using ih.2 i (by simpa using hi) (by simpa using hi')

theorem assembleImages_ok {zero : V} {imgs : List (Option (Arr V))} {n : Nat} {r : Option (Arr V)}
    (h : assembleImages zero imgs n = .ok r) (hn : imgs.length ≤ n) (hwf : ∀ a, some a ∈ imgs → a.WF) :
    (r = none ∧ none ∈ imgs) ∨
    (∃ a sh, r = some a ∧ a.shape = n :: sh ∧ (∀ i (hi : i < imgs.length), imgs[i] = some (a.row i)) ∧
      (∀ x, some x ∈ imgs → x.shape = sh) ∧ ∀ i, imgs.length ≤ i → i < n → a.row i = Arr.zeros zero sh) := by
  unfold assembleImages at h
  split at h
  · rename_i hall
    right
    obtain ⟨hlen, hget⟩ := filterMap_id_of_all imgs hall
    cases hst : Arr.stack (imgs.filterMap id) with
    | error e => rw [hst] at h; simp at h
    | ok a =>
      rw [hst] at h
      have hwf' : ∀ x ∈ imgs.filterMap id, x.WF := by
        intro x hx
        simp only [List.mem_filterMap, id] at hx
        obtain ⟨y, hy, rfl⟩ := hx
        exact hwf x hy
      obtain ⟨sh, hne, hsh, hall', hawf, hrow⟩ := Arr.stack_ok hst hwf'
      rw [hlen] at hsh
      have hshape : ∀ x, some x ∈ imgs → x.shape = sh := by
        intro x hx
        exact hall' x (List.mem_filterMap.mpr ⟨some x, hx, rfl⟩)
      have hrow' : ∀ i (hi : i < imgs.length), imgs[i] = some (a.row i) := by
        intro i hi
        rw [hget i hi (by omega), hrow i (by omega)]
      simp only at h
      split at h
      · rename_i hlt
        cases hp : Arr.padFirst zero 3 (n - imgs.length) a with
        | error e => rw [hp] at h; simp [Except.map] at h
        | ok b =>
          rw [hp] at h
          simp only [Except.map, Except.ok.injEq] at h
          obtain ⟨h1, h2, h3, h4, _⟩ := Arr.padFirst_ok hp hsh hawf
          have hn' : imgs.length + (n - imgs.length) = n := by omega
          rw [hn'] at h1 h4
          refine ⟨b, sh, h.symm, h1, ?_, hshape, h4⟩
          intro i hi
          rw [hrow' i hi, h3 i hi]
      · rename_i hge
        simp only [Except.ok.injEq] at h
        have hn' : imgs.length = n := by omega
        refine ⟨a, sh, h.symm, by rw [hsh, hn'], hrow', hshape, ?_⟩
        intro i h1 h2; omega
  · rename_i hall
    left
    simp only [Except.ok.injEq] at h
    refine ⟨h.symm, ?_⟩
    simp only [List.all_eq_true, not_forall] at hall
    obtain ⟨x, hx, hx'⟩ := hall
    cases x with
    | none => exact hx
    | some a => simp at hx'

theorem assembleImages_isOk {zero : V} {imgs : List (Option (Arr V))} {n : Nat} {o : Option (List Nat)}
    (hne : imgs ≠ []) (hsh : ∀ x ∈ imgs, x.map Arr.shape = o) (hr : ∀ sh, o = some sh → sh.length = 2)
    (hwf : ∀ a, some a ∈ imgs → a.WF) : ∃ r, assembleImages zero imgs n = .ok r := by
  unfold assembleImages
  split
  · rename_i hall
    obtain ⟨hlen, hget⟩ := filterMap_id_of_all imgs hall
    cases o with
    | none =>
      cases imgs with
      | nil => exact absurd rfl hne
      | cons x l =>
        have := hsh x (by simp)
        cases x with
        | none => simp at hall
        | some a => simp at this
    | some sh =>
      have hmem : ∀ x ∈ imgs.filterMap id, some x ∈ imgs := by
        intro x hx
        simp only [List.mem_filterMap, id] at hx
        obtain ⟨y, hy, rfl⟩ := hx
        exact hy
      have hsh' : ∀ x ∈ imgs.filterMap id, x.shape = sh := by
        intro x hx
        have := hsh _ (hmem x hx)
        simpa using this
      have hne' : imgs.filterMap id ≠ [] := by
        intro h0
        rw [h0] at hlen
        exact hne (List.eq_nil_of_length_eq_zero hlen.symm)
      obtain ⟨a, ha⟩ := Arr.stack_isOk hne' hsh'
      rw [ha]
      simp only
      obtain ⟨sh', _, hshape, hall', hawf, _⟩ := Arr.stack_ok ha (fun x hx => hwf x (hmem x hx))
      have : sh' = sh := by
        obtain ⟨x, hx⟩ := List.exists_mem_of_ne_nil _ hne'
        rw [← hall' x hx, hsh' x hx]
      subst this
      split
      · obtain ⟨b, hb⟩ := Arr.padFirst_isOk (zero := zero) (p := 3) (k := n - imgs.length) hshape
          (by rw [hr sh' rfl])
        rw [hb]
        exact ⟨_, rfl⟩
      · exact ⟨_, rfl⟩
  · exact ⟨_, rfl⟩

theorem assembleFiles_ok {files : List (Option (List String))} {n : Nat} {r : Option (List String)}
    (h : assembleFiles files n = .ok r) (hn : files.length ≤ n) :
    (r = none ∧ ∀ f ∈ files, f = none) ∨
    (∃ l, r = some l ∧ l.length = n ∧ (∀ i (hi : i < files.length), files[i].map (·.headD "") = some (l.getD i "")) ∧
      ∀ i, files.length ≤ i → i < n → l.getD i "" = "") := by
  unfold assembleFiles at h
  split at h
  · split at h
    · rename_i hany hall
      right
      simp only [Except.ok.injEq] at h
      refine ⟨_, h.symm, by simp; omega, ?_, ?_⟩
      · intro i hi
        rw [List.all_eq_true] at hall
        have hx := hall files[i] (List.getElem_mem hi)
        simp only [List.getD_eq_getElem?_getD]
        rw [List.getElem?_append_left (by simpa using hi)]
        simp only [List.getElem?_map, List.getElem?_eq_getElem hi, Option.map_some, Option.getD_some]
        cases hf : files[i] with
        | none => simp [hf] at hx
        | some l => cases l <;> simp
      · intro i h1 h2
        simp only [List.getD_eq_getElem?_getD]
        rw [List.getElem?_append_right (by simpa using h1)]
        simp only [List.length_map]
        rw [List.getElem?_replicate]
        split <;> rfl
    · simp at h
  · rename_i hany
    left
    simp only [Except.ok.injEq] at h
    refine ⟨h.symm, ?_⟩
    intro f hf
    cases f with
    | none => rfl
    | some l =>
      exact absurd (List.any_eq_true.mpr ⟨some l, hf, rfl⟩) hany

theorem assembleFiles_isOk {files : List (Option (List String))} {n : Nat} {named : Bool}
    (h : ∀ f ∈ files, if named then ∃ l, f = some l ∧ l.length ≤ 1 else f = none) :
    ∃ r, assembleFiles files n = .ok r := by
  unfold assembleFiles
  split
  · rename_i hany
    rw [if_pos]
    · exact ⟨_, rfl⟩
    · rw [List.all_eq_true]
      intro f hf
      have := h f hf
      cases named with
      | true =>
        simp only [if_true] at this
        obtain ⟨l, rfl, hl⟩ := this
        simpa using hl
      | false =>
        obtain ⟨f', hf', hs⟩ := List.any_eq_true.mp hany
        have := h f' hf'
        simp only [Bool.false_eq_true, if_false] at this
        simp [this] at hs
  · exact ⟨_, rfl⟩

theorem assemble_ok {zero : V} {cfg : Cfg} {l : List (Sample V)} {n : Nat} {b : Batch V}
    (h : assemble zero cfg l n = .ok b) (hn : l.length ≤ n) (hl : cfg.loop = true → l.length = n)
    (hwf : ∀ x ∈ l, x.WF) : l ≠ [] ∧ Shows zero l n b := by
  unfold assemble at h
  simp only [bind, Except.bind, pure, Except.pure] at h
  cases h1 : assembleImages zero (l.map Sample.images1) n with
  | error e => rw [h1] at h; simp at h
  | ok r1 =>
    rw [h1] at h
    cases h2 : assembleImages zero (l.map Sample.images2) n with
    | error e => rw [h2] at h; simp at h
    | ok r2 =>
      rw [h2] at h
      cases h3 : Arr.stack (l.map Sample.flow) with
      | error e => rw [h3] at h; simp at h
      | ok a =>
        rw [h3] at h
        cases h4 : assembleFiles (l.map Sample.files) n with
        | error e => rw [h4] at h; simp at h
        | ok fs =>
          rw [h4] at h
          simp only at h
          have hwff : ∀ x ∈ l.map Sample.flow, x.WF := by
            intro x hx
            obtain ⟨y, hy, rfl⟩ := List.mem_map.mp hx
            exact (hwf y hy).1
          obtain ⟨sh, hne, hshape, hall, hawf, hrow⟩ := Arr.stack_ok h3 hwff
          have hne' : l ≠ [] := by simpa using hne
          have hall' : ∀ x ∈ l, x.flow.shape = sh := fun x hx => hall _ (List.mem_map_of_mem hx)
          simp only [List.length_map] at hshape hrow
          -- the flow field
          have hflow : b.images1 = r1 ∧ b.images2 = r2 ∧ b.files = fs ∧
              b.mask = (if l.length < n ∧ cfg.loop = false then
                List.replicate l.length true ++ List.replicate (n - l.length) false else List.replicate n true) ∧
              b.flow.shape = n :: sh ∧ (∀ i (hi : i < l.length), b.flow.row i = l[i].flow) ∧
              ∀ i, l.length ≤ i → i < n → b.flow.row i = Arr.zeros zero sh := by
            by_cases hlt : l.length < n
            · rw [if_pos hlt] at h
              cases hp : Arr.padFirst zero 4 (n - l.length) a with
              | error e => rw [hp] at h; simp at h
              | ok f =>
                rw [hp] at h
                simp only [Except.ok.injEq] at h
                obtain ⟨p1, p2, p3, p4, _⟩ := Arr.padFirst_ok hp hshape hawf
                have hn' : l.length + (n - l.length) = n := by omega
                rw [hn'] at p1 p4
                subst h
                refine ⟨rfl, rfl, rfl, rfl, p1, ?_, p4⟩
                intro i hi
                simp only
                rw [p3 i hi, hrow i hi]
                simp
            · rw [if_neg hlt] at h
              simp only [Except.ok.injEq] at h
              have hn' : l.length = n := by omega
              subst h
              refine ⟨rfl, rfl, rfl, rfl, by rw [hshape, hn'], ?_, ?_⟩
              · intro i hi; simp only; rw [hrow i hi]; simp
              · intro i _ _; omega
          clear h
          obtain ⟨rfl, rfl, rfl, hmask, f1, f2, f3⟩ := hflow
          have hw1 : ∀ a, some a ∈ l.map Sample.images1 → a.WF := by
            intro a ha
            obtain ⟨y, hy, he⟩ := List.mem_map.mp ha
            exact (hwf y hy).2.1 a he
          have hw2 : ∀ a, some a ∈ l.map Sample.images2 → a.WF := by
            intro a ha
            obtain ⟨y, hy, he⟩ := List.mem_map.mp ha
            exact (hwf y hy).2.2 a he
          have i1 := assembleImages_ok h1 (by simpa using hn) hw1
          have i2 := assembleImages_ok h2 (by simpa using hn) hw2
          have i3 := assembleFiles_ok h4 (by simpa using hn)
          refine ⟨hne', ?_⟩
          constructor
          · rw [hmask]
            by_cases hlt : l.length < n
            · have hloop : cfg.loop = false := by
                cases hc : cfg.loop with
                | false => rfl
                | true => have := hl hc; omega
              simp [hlt, hloop]
            · have hn' : l.length = n := by omega
              simp [hn']
          · intro x hx; rw [f1, hall' x hx]
          · exact f2
          · intro i hi1 hi2 x hx; rw [f3 i hi1 hi2, hall' x hx]
          · rcases i1 with ⟨e, hm⟩ | ⟨a, sh1, e, s1, s2, s3, s4⟩
            · left; refine ⟨e, ?_⟩
              obtain ⟨y, hy, he⟩ := List.mem_map.mp hm
              exact ⟨y, hy, he⟩
            · right
              refine ⟨a, sh1, e, s1, ?_, ?_, ?_⟩
              · intro i hi; rw [← s2 i (by simpa using hi), List.getElem_map]
              · intro x hx y hy; exact s3 y (by rw [← hy]; exact List.mem_map_of_mem hx)
              · simpa using s4
          · rcases i2 with ⟨e, hm⟩ | ⟨a, sh1, e, s1, s2, s3, s4⟩
            · left; refine ⟨e, ?_⟩
              obtain ⟨y, hy, he⟩ := List.mem_map.mp hm
              exact ⟨y, hy, he⟩
            · right
              refine ⟨a, sh1, e, s1, ?_, ?_, ?_⟩
              · intro i hi; rw [← s2 i (by simpa using hi), List.getElem_map]
              · intro x hx y hy; exact s3 y (by rw [← hy]; exact List.mem_map_of_mem hx)
              · simpa using s4
          · rcases i3 with ⟨e, hm⟩ | ⟨fs', e, s1, s2, s3⟩
            · left; refine ⟨e, ?_⟩
              intro x hx; exact hm _ (List.mem_map_of_mem hx)
            · right
              refine ⟨fs', e, s1, ?_, ?_⟩
              · intro i hi; rw [← s2 i (by simpa using hi), List.getElem_map]
              · simpa using s3

theorem assemble_isOk {zero : V} {cfg : Cfg} {l : List (Sample V)} {n : Nat} {fsh : List Nat}
    {o1 o2 : Option (List Nat)} {named : Bool} (hne : l ≠ []) (hu : Uniform l fsh o1 o2 named) :
    ∃ b, assemble zero cfg l n = .ok b := by
  unfold assemble
  simp only [bind, Except.bind, pure, Except.pure]
  obtain ⟨r1, h1⟩ := assembleImages_isOk (zero := zero) (imgs := l.map Sample.images1) (n := n) (o := o1)
    (by simpa using hne) (by intro x hx; obtain ⟨y, hy, rfl⟩ := List.mem_map.mp hx; exact (hu.images1 y hy).1) hu.i1_rank
    (by intro a ha; obtain ⟨y, hy, he⟩ := List.mem_map.mp ha; exact (hu.images1 y hy).2 a he)
  obtain ⟨r2, h2⟩ := assembleImages_isOk (zero := zero) (imgs := l.map Sample.images2) (n := n) (o := o2)
    (by simpa using hne) (by intro x hx; obtain ⟨y, hy, rfl⟩ := List.mem_map.mp hx; exact (hu.images2 y hy).1) hu.i2_rank
    (by intro a ha; obtain ⟨y, hy, he⟩ := List.mem_map.mp ha; exact (hu.images2 y hy).2 a he)
  have hshf : ∀ x ∈ l.map Sample.flow, x.shape = fsh := by
    intro x hx; obtain ⟨y, hy, rfl⟩ := List.mem_map.mp hx; exact (hu.flow y hy).1
  have hwff : ∀ x ∈ l.map Sample.flow, x.WF := by
    intro x hx; obtain ⟨y, hy, rfl⟩ := List.mem_map.mp hx; exact (hu.flow y hy).2
  obtain ⟨a, h3⟩ := Arr.stack_isOk (by simpa using hne) hshf
  obtain ⟨r4, h4⟩ := assembleFiles_isOk (files := l.map Sample.files) (n := n) (named := named)
    (by intro x hx; obtain ⟨y, hy, rfl⟩ := List.mem_map.mp hx; exact hu.files y hy)
  obtain ⟨sh, hne', hshape, hall, _, _⟩ := Arr.stack_ok h3 hwff
  have : sh = fsh := by
    obtain ⟨x, hx⟩ := List.exists_mem_of_ne_nil _ hne'
    rw [← hall x hx, hshf x hx]
  subst this
  rw [h1, h2, h3, h4]
  simp only
  by_cases hlt : l.length < n
  · rw [if_pos hlt]
    obtain ⟨b, hb⟩ := Arr.padFirst_isOk (zero := zero) (p := 4) (k := n - l.length) hshape (by rw [hu.flow_rank])
    rw [hb]
    exact ⟨_, rfl⟩
  · rw [if_neg hlt]
    exact ⟨_, rfl⟩

end Verif.Base
