import Verif.Proofs.BaseRun
/-!
# Further lemmas: delivered rows, stability of exhaustion, splitting of batches
-/

namespace Verif.Base
open Verif
variable {V D Key : Type}

theorem uniform_wf {l : List (Sample V)} {fsh o1 o2 named} (hu : Uniform l fsh o1 o2 named) : ∀ x ∈ l, x.WF :=
  fun x hx => ⟨(hu.flow x hx).2, (hu.images1 x hx).2, (hu.images2 x hx).2⟩

theorem uniform_sub {l l' : List (Sample V)} {fsh o1 o2 named} (hu : Uniform l fsh o1 o2 named) (hs : ∀ x ∈ l', x ∈ l) :
    Uniform l' fsh o1 o2 named :=
  ⟨hu.flow_rank, hu.i1_rank, hu.i2_rank, fun x hx => hu.flow x (hs x hx), fun x hx => hu.images1 x (hs x hx),
    fun x hx => hu.images2 x (hs x hx), fun x hx => hu.files x (hs x hx)⟩

theorem shows_row {zero : V} {l : List (Sample V)} {n : Nat} {b : Batch V} {fsh o1 o2 named} (h : Shows zero l n b)
    (hu : Uniform l fsh o1 o2 named) (i : Nat) (hi : i < l.length) : b.row i = l[i].row := by
  have hmem : l[i] ∈ l := List.getElem_mem hi
  have hm : b.mask.getD i false = true := by
    rw [h.mask, List.getD_eq_getElem?_getD, List.getElem?_append_left (by simpa using hi)]
    simp [hi]
  have h1 : b.images1.map (·.row i) = l[i].images1 := by
    rcases h.im1 with ⟨e, x, hx, hx'⟩ | ⟨a, sh, e, _, hr, _⟩
    · have h1 := (hu.images1 x hx).1
      rw [hx'] at h1
      have h2 := (hu.images1 _ hmem).1
      rw [← h1] at h2
      rw [e]
      cases hl : l[i].images1 with
      | none => rfl
      | some a => rw [hl] at h2; simp at h2
    · rw [e, hr i hi]; rfl
  have h2 : b.images2.map (·.row i) = l[i].images2 := by
    rcases h.im2 with ⟨e, x, hx, hx'⟩ | ⟨a, sh, e, _, hr, _⟩
    · have h1 := (hu.images2 x hx).1
      rw [hx'] at h1
      have h2 := (hu.images2 _ hmem).1
      rw [← h1] at h2
      rw [e]
      cases hl : l[i].images2 with
      | none => rfl
      | some a => rw [hl] at h2; simp at h2
    · rw [e, hr i hi]; rfl
  have h3 : b.files.map (·.getD i "") = l[i].files.map (·.headD "") := by
    rcases h.files with ⟨e, hx⟩ | ⟨fs, e, _, hr, _⟩
    · rw [e, hx _ hmem]; rfl
    · rw [e, hr i hi]; rfl
  simp only [Batch.row, Sample.row, h.flow_rows i hi, h1, h2, h3, hm]

theorem delivered_shows {zero : V} {l : List (Sample V)} {n : Nat} {b : Batch V} {fsh o1 o2 named} (h : Shows zero l n b)
    (hu : Uniform l fsh o1 o2 named) : delivered (.ok b) = l.map Sample.row := by
  have hlen : b.mask.length = l.length + (n - l.length) := by rw [h.mask]; simp
  show List.filter Row.flag (List.map b.row (List.range b.mask.length)) = _
  rw [hlen, List.range_add, List.map_append, List.filter_append]
  have h1 : ((List.range l.length).map b.row) = l.map Sample.row := by
    apply List.ext_getElem
    · simp
    · intro i h1 h2
      simp only [List.getElem_map, List.getElem_range]
      exact shows_row h hu i (by simpa using h1)
  have h2 : List.filter Row.flag (List.map b.row (List.map (fun x => l.length + x) (List.range (n - l.length)))) = [] := by
    rw [List.filter_eq_nil_iff]
    intro r hr
    simp only [List.map_map, List.mem_map, List.mem_range, Function.comp] at hr
    obtain ⟨j, hj, rfl⟩ := hr
    simp only [Batch.row, h.mask, List.getD_eq_getElem?_getD]
    rw [List.getElem?_append_right (by simp)]
    simp [hj]
  rw [h1, h2, List.append_nil]
  rw [List.filter_eq_self]
  intro r hr
  obtain ⟨x, _, rfl⟩ := List.mem_map.mp hr
  rfl

theorem assemble_uniform (zero : V) (cfg : Cfg) {l : List (Sample V)} {n : Nat} {fsh o1 o2 named} (hne : l ≠ [])
    (hn : l.length ≤ n) (hl : cfg.loop = true → l.length = n) (hu : Uniform l fsh o1 o2 named) :
    ∃ b, assemble zero cfg l n = .ok b ∧ Shows zero l n b ∧ delivered (.ok b) = l.map Sample.row := by
  obtain ⟨b, hb⟩ := assemble_isOk (zero := zero) (cfg := cfg) (n := n) hne hu
  obtain ⟨_, hs⟩ := assemble_ok hb hn hl (uniform_wf hu)
  exact ⟨b, hb, hs, delivered_shows hs hu⟩

theorem delivered_takeBatches_nonloop (zero : V) (cfg : Cfg) (hloop : cfg.loop = false) {fsh o1 o2 named} :
    ∀ (ns : List Nat) (l : List (Sample V)), Uniform l fsh o1 o2 named →
    ((takeBatches l ns).zipWith (fun l n => if l = [] then .error .stopIteration else assemble zero cfg l n) ns).flatMap delivered
      = (l.take ns.sum).map Sample.row
  | [], l, _ => by simp [takeBatches]
  | n :: ns, l, hu => by
    have ih := delivered_takeBatches_nonloop zero cfg hloop ns (l.drop n) (uniform_sub hu (fun x hx => List.mem_of_mem_drop hx))
    simp only [takeBatches, List.zipWith_cons_cons, List.flatMap_cons, ih, List.sum_cons]
    have hfirst : delivered (if l.take n = [] then .error .stopIteration else assemble zero cfg (l.take n) n)
        = (l.take n).map Sample.row := by
      by_cases h : l.take n = []
      · simp [h, delivered]
      · rw [if_neg h]
        obtain ⟨b, hb, _, hd⟩ := assemble_uniform zero cfg h (n := n) (by simp) (by simp [hloop])
          (uniform_sub hu (fun x hx => List.mem_of_mem_take hx))
        rw [hb, hd]
    rw [hfirst, ← List.map_append, List.take_add]

theorem delivered_takeBatches_loop (zero : V) (cfg : Cfg) {fsh o1 o2 named} :
    ∀ (ns : List Nat) (l : List (Sample V)), (∀ n ∈ ns, 0 < n) → l.length = ns.sum → Uniform l fsh o1 o2 named →
    ((takeBatches l ns).zipWith (fun l n => assemble zero cfg l n) ns).flatMap delivered = l.map Sample.row ∧
    ∀ r ∈ (takeBatches l ns).zipWith (fun l n => assemble zero cfg l n) ns, ∃ b, r = .ok b ∧ ∀ m ∈ b.mask, m = true
  | [], l, _, hlen, _ => by
    have : l = [] := List.eq_nil_of_length_eq_zero (by simpa using hlen)
    simp [takeBatches, this]
  | n :: ns, l, hpos, hlen, hu => by
    simp only [List.sum_cons] at hlen
    obtain ⟨ih1, ih2⟩ := delivered_takeBatches_loop zero cfg ns (l.drop n) (fun m hm => hpos m (by simp [hm]))
      (by simp [hlen]) (uniform_sub hu (fun x hx => List.mem_of_mem_drop hx))
    have hn := hpos n (by simp)
    have htl : (l.take n).length = n := by rw [List.length_take]; omega
    have hne : l.take n ≠ [] := by
      intro h; rw [h] at htl; simp at htl; omega
    obtain ⟨b, hb, hs, hd⟩ := assemble_uniform zero cfg hne (n := n) (by omega) (fun _ => htl)
          (uniform_sub hu (fun x hx => List.mem_of_mem_take hx))
    simp only [takeBatches, List.zipWith_cons_cons, List.flatMap_cons, ih1]
    constructor
    · rw [hb, hd, ← List.map_append, List.take_append_drop]
    · intro r hr
      simp only [List.mem_cons] at hr
      rcases hr with rfl | hr
      · refine ⟨b, hb, ?_⟩
        intro m hm
        rw [hs.mask, htl] at hm
        simp at hm
        exact hm.2
      · exact ih2 r hr

/-! ### Arbitrary worlds -/

theorem body_no_stop (w : World V D Key) (s s' : St D Key) : body w s ≠ .stop s' := by
  have ht : ∀ s p d, takeSlice w s p d ≠ (.stop s' : Step V D Key) := by
    intro s p d; unfold takeSlice; split <;> simp
  unfold body
  split
  · simp
  · split
    · split
      · exact ht _ _ _
      · split
        · exact ht _ _ _
        · simp
    · split
      · exact ht _ _ _
      · simp

theorem iter_stop {w : World V D Key} {cfg : Cfg} {s s' : St D Key} (h : iter w cfg s = .stop s') :
    cfg.loop = false ∧ s' = s ∧ s.fileList.length ≤ s.index := by
  unfold iter at h
  split at h
  · exact absurd h (body_no_stop w s s')
  · split at h
    · exact absurd h (body_no_stop w _ s')
    · rename_i h1 h2
      simp only [Step.stop.injEq] at h
      exact ⟨by simpa using h2, h.symm, by omega⟩

/-- The state reached by a stop is stable: every further call stops again. -/
theorem getNext_stop {w : World V D Key} {cfg : Cfg} : ∀ (fuel : Nat) (s s' : St D Key),
    getNext w cfg fuel s = some (.stop, s') →
    cfg.loop = false ∧ ∀ f, getNext w cfg (f + 1) s' = some (.stop, s')
  | 0, s, s', h => by simp [getNext] at h
  | fuel + 1, s, s', h => by
    simp only [getNext] at h
    split at h
    · exact getNext_stop fuel _ s' h
    · simp at h
    · rename_i st hst
      obtain ⟨h1, h2, h3⟩ := iter_stop hst
      simp only [Option.some.injEq, Prod.mk.injEq, true_and] at h
      subst h
      refine ⟨h1, ?_⟩
      intro f
      have : ¬ st.index < st.fileList.length := by rw [h2]; omega
      simp [getNext, iter, this, h1]
    · simp at h

theorem takeSlice_raise {w : World V D Key} {s s' : St D Key} {p : String} {d : D} {e : Exc}
    (h : takeSlice w s p d = .raise e s') : s' = s ∧ w.slice p d s.sliceIdx = .fail e := by
  unfold takeSlice at h
  split at h
  · simp at h
  · simp at h
  · simp only [Step.raise.injEq] at h
    rename_i e' he
    exact ⟨h.2.symm, by rw [he, h.1]⟩

/-- A state in which an exception escaped raises the same exception again. -/
theorem body_raise {w : World V D Key} {s s' : St D Key} {e : Exc} (h : body w s = .raise e s') :
    body w s' = .raise e s' ∧ s'.index = s.index ∧ s'.fileList = s.fileList := by
  have key : ∀ (path : String) (d : D) (s0 : St D Key), s0.fileList[s0.index]? = some path →
      s0.cached = some (path, d) → takeSlice w s0 path d = .raise e s' →
      body w s' = .raise e s' ∧ s'.index = s0.index ∧ s'.fileList = s0.fileList := by
    intro path d s0 h1 h2 h3
    obtain ⟨h4, _⟩ := takeSlice_raise h3
    subst h4
    refine ⟨?_, rfl, rfl⟩
    simp only [body, h1, h2, if_true, h3]
  unfold body at h
  split at h
  · rename_i hn
    simp only [Step.raise.injEq] at h
    obtain ⟨h1, h2⟩ := h
    subst h1 h2
    refine ⟨?_, rfl, rfl⟩
    unfold body
    rw [hn]
  · rename_i path hpath
    split at h
    · rename_i q d hc
      split at h
      · rename_i hq
        subst hq
        exact key _ d s hpath hc h
      · split at h
        · rename_i d' _
          exact key path d' { s with cached := some (path, d'), sliceIdx := 0 } hpath rfl h
        · simp at h
    · split at h
      · rename_i d' _
        exact key path d' { s with cached := some (path, d'), sliceIdx := 0 } hpath rfl h
      · simp at h

theorem iter_raise {w : World V D Key} {cfg : Cfg} {s s' : St D Key} {e : Exc} (h : iter w cfg s = .raise e s')
    (hne : s.fileList ≠ []) (hp : cfg.randomize = true → PermOK w) : iter w cfg s' = .raise e s' := by
  unfold iter at h
  split at h
  · rename_i hlt
    obtain ⟨h1, h2, h3⟩ := body_raise h
    unfold iter
    rw [if_pos (by rw [h2, h3]; exact hlt), h1]
  · split at h
    · obtain ⟨h1, h2, h3⟩ := body_raise h
      have : s'.index < s'.fileList.length := by
        rw [h2, h3]
        have hl : (reset w cfg s).fileList.length = s.fileList.length := (shuffle_perm hp _ _).length_eq
        rw [hl]
        exact List.length_pos_iff.mpr hne
      unfold iter
      rw [if_pos this, h1]
    · simp at h

theorem getNext_mono {w : World V D Key} {cfg : Cfg} : ∀ (fuel : Nat) (s : St D Key) {r}, getNext w cfg fuel s = some r →
    ∀ fuel', fuel ≤ fuel' → getNext w cfg fuel' s = some r
  | 0, s, r, h, _, _ => by simp [getNext] at h
  | fuel + 1, s, r, h, fuel', hf => by
    obtain ⟨f, rfl⟩ : ∃ f, fuel' = f + 1 := ⟨fuel' - 1, by omega⟩
    simp only [getNext] at h ⊢
    split at h
    · exact getNext_mono fuel _ h f (by omega)
    all_goals exact h

theorem collect_mono {w : World V D Key} {cfg : Cfg} : ∀ (n fuel : Nat) (s : St D Key) {r}, collect w cfg fuel n s = some r →
    ∀ fuel', fuel ≤ fuel' → collect w cfg fuel' n s = some r
  | 0, fuel, s, r, h, fuel', hf => by simpa [collect] using h
  | n + 1, fuel, s, r, h, fuel', hf => by
    simp only [collect] at h
    cases hg : getNext w cfg fuel s with
    | none => rw [hg] at h; simp at h
    | some res =>
      rw [hg] at h
      simp only [collect, getNext_mono fuel s hg fuel' hf]
      obtain ⟨nx, s'⟩ := res
      cases nx with
      | stop => exact h
      | raise e => exact h
      | ret x =>
        simp only at h ⊢
        cases hc : collect w cfg fuel n s' with
        | none => rw [hc] at h; simp at h
        | some res' =>
          rw [hc] at h
          rw [collect_mono n fuel s' hc fuel' hf]
          exact h

theorem getBatch_mono {zero : V} {w : World V D Key} {cfg : Cfg} {n fuel : Nat} {s : St D Key} {r}
    (h : getBatch zero w cfg fuel n s = some r) {fuel' : Nat} (hf : fuel ≤ fuel') :
    getBatch zero w cfg fuel' n s = some r := by
  unfold getBatch at h ⊢
  cases hc : collect w cfg fuel n s with
  | none => rw [hc] at h; simp at h
  | some res => rw [collect_mono n fuel s hc fuel' hf]; rw [hc] at h; exact h

theorem collect_length {w : World V D Key} {cfg : Cfg} : ∀ (n fuel : Nat) (s : St D Key) {xs s'},
    collect w cfg fuel n s = some (.ok xs, s') → xs.length ≤ n
  | 0, fuel, s, xs, s', h => by simp [collect] at h; simp [h.1.symm]
  | n + 1, fuel, s, xs, s', h => by
    simp only [collect] at h
    split at h
    · simp at h
    · simp at h; simp [h.1]
    · split at h
      · simp at h; simp [h.1]
      · simp at h
    · split at h
      · simp at h
      · rename_i hc
        have := collect_length n fuel _ hc
        simp only [Option.some.injEq, Prod.mk.injEq, Except.ok.injEq] at h
        rw [← h.1]; simp; omega
      · simp at h

/-- The loop of `get_batch` draws successive samples. -/
theorem collect_draws {w : World V D Key} {cfg : Cfg} : ∀ (n fuel : Nat) (s : St D Key) {xs s'},
    collect w cfg fuel n s = some (.ok xs, s') → ∃ s1, Draws w cfg fuel s xs s1 ∧
      ((xs.length = n ∧ s' = s1) ∨ (xs.length < n ∧ (getNext w cfg fuel s1 = some (.stop, s') ∨
        getNext w cfg fuel s1 = some (.raise .stopIteration, s'))))
  | 0, fuel, s, xs, s', h => by
    simp only [collect, Option.some.injEq, Prod.mk.injEq, Except.ok.injEq] at h
    obtain ⟨rfl, rfl⟩ := h
    exact ⟨_, .nil _, .inl ⟨rfl, rfl⟩⟩
  | n + 1, fuel, s, xs, s', h => by
    simp only [collect] at h
    split at h
    · simp at h
    · rename_i hg
      simp only [Option.some.injEq, Prod.mk.injEq, Except.ok.injEq] at h
      obtain ⟨rfl, rfl⟩ := h
      exact ⟨s, .nil _, .inr ⟨by simp, .inl hg⟩⟩
    · rename_i e s0 hg
      split at h
      · rename_i he
        subst he
        simp only [Option.some.injEq, Prod.mk.injEq, Except.ok.injEq] at h
        obtain ⟨rfl, rfl⟩ := h
        exact ⟨s, .nil _, .inr ⟨by simp, .inr hg⟩⟩
      · simp at h
    · rename_i x s0 hg
      split at h
      · simp at h
      · rename_i xs0 s1 hc
        simp only [Option.some.injEq, Prod.mk.injEq, Except.ok.injEq] at h
        obtain ⟨rfl, rfl⟩ := h
        obtain ⟨s2, hd, hcase⟩ := collect_draws n fuel s0 hc
        refine ⟨s2, .cons hg hd, ?_⟩
        simp only [List.length_cons]
        rcases hcase with ⟨a, b⟩ | ⟨a, b⟩
        · exact .inl ⟨by omega, b⟩
        · exact .inr ⟨by omega, b⟩
      · simp at h

/-- Splitting the loop of `get_batch` when the first part is complete. -/
theorem collect_add {w : World V D Key} {cfg : Cfg} (fuel n : Nat) : ∀ (m : Nat) (s : St D Key) {xs s'},
    collect w cfg fuel m s = some (.ok xs, s') → xs.length = m →
    collect w cfg fuel (m + n) s = (collect w cfg fuel n s').map (fun r => (r.1.map (xs ++ ·), r.2))
  | 0, s, xs, s', h, hl => by
    simp only [collect, Option.some.injEq, Prod.mk.injEq, Except.ok.injEq] at h
    obtain ⟨rfl, rfl⟩ := h
    rw [Nat.zero_add]
    cases collect w cfg fuel n s with
    | none => rfl
    | some r => obtain ⟨r, t⟩ := r; cases r <;> simp [Except.map]
  | m + 1, s, xs, s', h, hl => by
    have hm : m + 1 + n = (m + n) + 1 := by omega
    rw [hm]
    simp only [collect] at h ⊢
    split at h
    · simp at h
    · simp at h; simp [h.1] at hl
    · split at h
      · simp at h; simp [h.1] at hl
      · simp at h
    · rename_i x s0 hg
      split at h
      · simp at h
      · rename_i xs0 s1 hc
        simp only [Option.some.injEq, Prod.mk.injEq, Except.ok.injEq] at h
        obtain ⟨rfl, rfl⟩ := h
        rw [collect_add fuel n m s0 hc (by simpa using hl)]
        cases collect w cfg fuel n s1 with
        | none => rfl
        | some r => obtain ⟨r, t⟩ := r; cases r <;> simp [Except.map]
      · simp at h

/-- ... and when it was cut short. -/
theorem collect_add_short {w : World V D Key} {cfg : Cfg} (fuel n : Nat) : ∀ (m : Nat) (s : St D Key) {xs s'},
    collect w cfg fuel m s = some (.ok xs, s') → xs.length < m → collect w cfg fuel (m + n) s = some (.ok xs, s')
  | 0, s, xs, s', h, hl => by simp at hl
  | m + 1, s, xs, s', h, hl => by
    have hm : m + 1 + n = (m + n) + 1 := by omega
    rw [hm]
    simp only [collect] at h ⊢
    split at h
    · simp at h
    · simpa using h
    · split at h
      · rename_i he
        rw [if_pos he]; exact h
      · simp at h
    · rename_i x s0 hg
      split at h
      · simp at h
      · rename_i xs0 s1 hc
        simp only [Option.some.injEq, Prod.mk.injEq, Except.ok.injEq] at h
        obtain ⟨rfl, rfl⟩ := h
        rw [collect_add_short fuel n m s0 hc (by simpa using hl)]
      · simp at h

theorem collect_succ_stop {w : World V D Key} {cfg : Cfg} {fuel n : Nat} {s : St D Key}
    (h : getNext w cfg fuel s = some (.stop, s)) : collect w cfg fuel (n + 1) s = some (.ok [], s) := by
  simp [collect, h]

end Verif.Base

namespace Verif.Base
open Verif
variable {V D Key : Type}

theorem nodup_chain {l : List String} (h : l.Nodup) : List.IsChain (· ≠ ·) l := List.Pairwise.isChain h

theorem takeSlice_ret {w : World V D Key} {s s' : St D Key} {p : String} {d : D} {x : Sample V}
    (h : takeSlice w s p d = .ret x s') : w.slice p d s.sliceIdx = .ok x := by
  unfold takeSlice at h
  split at h
  · rename_i hx; simp only [Step.ret.injEq] at h; rw [hx, h.1]
  · simp at h
  · simp at h

theorem body_ret {w : World V D Key} {s s' : St D Key} {x : Sample V} (h : body w s = .ret x s') :
    ∃ p d i, w.slice p d i = .ok x := by
  unfold body at h
  split at h
  · simp at h
  · split at h
    · split at h
      · exact ⟨_, _, _, takeSlice_ret h⟩
      · split at h
        · exact ⟨_, _, _, takeSlice_ret h⟩
        · simp at h
    · split at h
      · exact ⟨_, _, _, takeSlice_ret h⟩
      · simp at h

theorem getNext_ret {w : World V D Key} {cfg : Cfg} : ∀ (fuel : Nat) (s s' : St D Key) (x : Sample V),
    getNext w cfg fuel s = some (.ret x, s') → ∃ p d i, w.slice p d i = .ok x
  | 0, s, s', x, h => by simp [getNext] at h
  | fuel + 1, s, s', x, h => by
    simp only [getNext] at h
    split at h
    · exact getNext_ret fuel _ s' x h
    · rename_i hi
      simp only [Option.some.injEq, Prod.mk.injEq, Next.ret.injEq] at h
      obtain ⟨rfl, rfl⟩ := h
      unfold iter at hi
      split at hi
      · exact body_ret hi
      · split at hi
        · exact body_ret hi
        · simp at hi
    · simp at h
    · simp at h

theorem draws_slice {w : World V D Key} {cfg : Cfg} {fuel : Nat} {s s' : St D Key} {xs : List (Sample V)}
    (h : Draws w cfg fuel s xs s') : ∀ x ∈ xs, ∃ p d i, w.slice p d i = .ok x := by
  induction h with
  | nil s => simp
  | cons h t ih =>
    intro x hx
    rcases List.mem_cons.mp hx with rfl | hx
    · exact getNext_ret _ _ _ _ h
    · exact ih x hx

theorem draws_append {w : World V D Key} {cfg : Cfg} {fuel : Nat} {s s' s'' : St D Key} {xs ys : List (Sample V)}
    (h : Draws w cfg fuel s xs s') (h' : Draws w cfg fuel s' ys s'') : Draws w cfg fuel s (xs ++ ys) s'' := by
  induction h with
  | nil s => exact h'
  | cons h t ih => exact .cons h (ih h')

/-- Where an escaping exception comes from: the failing slice, or the empty list. -/
theorem body_raise_src {w : World V D Key} {s s' : St D Key} {e : Exc} (h : body w s = .raise e s') :
    e = .indexError ∨ ∃ p d i, w.slice p d i = .fail e := by
  unfold body at h
  split at h
  · simp only [Step.raise.injEq] at h; exact .inl h.1.symm
  · split at h
    · split at h
      · exact .inr ⟨_, _, _, (takeSlice_raise h).2⟩
      · split at h
        · exact .inr ⟨_, _, _, (takeSlice_raise h).2⟩
        · simp at h
    · split at h
      · exact .inr ⟨_, _, _, (takeSlice_raise h).2⟩
      · simp at h

theorem getNext_no_raise_stop {w : World V D Key} {cfg : Cfg} (hns : ∀ p d i, w.slice p d i ≠ .fail .stopIteration) :
    ∀ (fuel : Nat) (s s' : St D Key), getNext w cfg fuel s ≠ some (.raise .stopIteration, s')
  | 0, s, s' => by simp [getNext]
  | fuel + 1, s, s' => by
    have hb : ∀ t, body w t ≠ .raise .stopIteration s' := by
      intro t h
      rcases body_raise_src h with h | ⟨p, d, i, h⟩
      · simp at h
      · exact hns p d i h
    intro h
    simp only [getNext] at h
    split at h
    · exact getNext_no_raise_stop hns fuel _ s' h
    · simp at h
    · simp at h
    · rename_i hi
      simp only [Option.some.injEq, Prod.mk.injEq, Next.raise.injEq] at h
      obtain ⟨rfl, rfl⟩ := h
      unfold iter at hi
      split at hi
      · exact hb _ hi
      · split at hi
        · exact hb _ hi
        · simp at hi

theorem getNext_raise_stable {w : World V D Key} {cfg : Cfg} (hloop : cfg.loop = false) {e : Exc} :
    ∀ (fuel : Nat) (s s' : St D Key), getNext w cfg fuel s = some (.raise e, s') →
      ∀ f, getNext w cfg (f + 1) s' = some (.raise e, s')
  | 0, s, s', h => by simp [getNext] at h
  | fuel + 1, s, s', h => by
    simp only [getNext] at h
    split at h
    · exact getNext_raise_stable hloop fuel _ s' h
    · simp at h
    · simp at h
    · rename_i hi
      simp only [Option.some.injEq, Prod.mk.injEq, Next.raise.injEq] at h
      obtain ⟨rfl, rfl⟩ := h
      intro f
      unfold iter at hi
      split at hi
      · rename_i hlt
        obtain ⟨h1, h2, h3⟩ := body_raise hi
        simp [getNext, iter, h2, h3, hlt, h1]
      · simp [hloop] at hi

theorem collect_error_ne {w : World V D Key} {cfg : Cfg} : ∀ (n fuel : Nat) (s : St D Key) {s'},
    ¬ collect w cfg fuel n s = some (.error .stopIteration, s')
  | 0, fuel, s, s' => by simp [collect]
  | n + 1, fuel, s, s' => by
    intro h
    simp only [collect] at h
    split at h
    · simp at h
    · simp at h
    · split at h
      · simp at h
      · rename_i he
        simp only [Option.some.injEq, Prod.mk.injEq, Except.error.injEq] at h
        exact he h.1
    · split at h
      · simp at h
      · simp at h
      · rename_i hc
        simp only [Option.some.injEq, Prod.mk.injEq, Except.error.injEq] at h
        obtain ⟨rfl, rfl⟩ := h
        exact collect_error_ne n fuel _ hc

theorem stack_error {l : List (Arr V)} {e : Exc} (h : Arr.stack l = .error e) : e = .valueError := by
  unfold Arr.stack at h
  split at h
  · simpa using h.symm
  · split at h
    · simp at h
    · simpa using h.symm

theorem padFirst_error {zero : V} {p k : Nat} {a : Arr V} {e : Exc} (h : Arr.padFirst zero p k a = .error e) :
    e = .valueError := by
  unfold Arr.padFirst at h
  split at h
  · split at h
    · simpa using h.symm
    · simp at h
  · simpa using h.symm

theorem assembleImages_error {zero : V} {l : List (Option (Arr V))} {n : Nat} {e : Exc}
    (h : assembleImages zero l n = .error e) : e = .valueError := by
  unfold assembleImages at h
  split at h
  · split at h
    · rename_i hs
      simp only [Except.error.injEq] at h
      subst h; exact stack_error hs
    · split at h
      · cases hp : Arr.padFirst zero 3 (n - l.length) _ with
        | error e' => rw [hp] at h; simp only [Except.map, Except.error.injEq] at h; subst h; exact padFirst_error hp
        | ok a => rw [hp] at h; simp [Except.map] at h
      · simp at h
  · simp at h

theorem assembleFiles_error {l : List (Option (List String))} {n : Nat} {e : Exc}
    (h : assembleFiles l n = .error e) : e = .valueError := by
  unfold assembleFiles at h
  split at h
  · split at h
    · simp at h
    · simpa using h.symm
  · simp at h

/-- Assembling a batch either fails with a `ValueError` or returns a batch with the expected mask. -/
theorem assemble_cases (zero : V) (cfg : Cfg) (l : List (Sample V)) (n : Nat) :
    assemble zero cfg l n = .error .valueError ∨ ∃ b, assemble zero cfg l n = .ok b ∧ b.mask =
      if l.length < n ∧ cfg.loop = false then List.replicate l.length true ++ List.replicate (n - l.length) false
      else List.replicate n true := by
  unfold assemble
  simp only [bind, Except.bind, pure, Except.pure]
  cases h1 : assembleImages zero (l.map Sample.images1) n with
  | error e => left; rw [assembleImages_error h1]
  | ok a1 =>
    cases h2 : assembleImages zero (l.map Sample.images2) n with
    | error e => left; simp only; rw [assembleImages_error h2]
    | ok a2 =>
      cases h3 : Arr.stack (l.map Sample.flow) with
      | error e => left; simp only; rw [stack_error h3]
      | ok a3 =>
        cases h4 : assembleFiles (l.map Sample.files) n with
        | error e => left; simp only; rw [assembleFiles_error h4]
        | ok a4 =>
          simp only
          by_cases hlt : l.length < n
          · simp only [if_pos hlt]
            cases h5 : Arr.padFirst zero 4 (n - l.length) a3 with
            | error e => left; simp only; rw [padFirst_error h5]
            | ok a5 => right; exact ⟨_, rfl, rfl⟩
          · simp only [if_neg hlt]
            right; exact ⟨_, rfl, rfl⟩

theorem assemble_mask {zero : V} {cfg : Cfg} {l : List (Sample V)} {n : Nat} {b : Batch V} (h : assemble zero cfg l n = .ok b) :
    b.mask = if l.length < n ∧ cfg.loop = false then List.replicate l.length true ++ List.replicate (n - l.length) false
      else List.replicate n true := by
  rcases assemble_cases zero cfg l n with h' | ⟨b', h', hm⟩
  · rw [h] at h'; simp at h'
  · rw [h] at h'; simp only [Except.ok.injEq] at h'; rw [h']; exact hm

theorem assemble_error {zero : V} {cfg : Cfg} {l : List (Sample V)} {n : Nat} {e : Exc} (h : assemble zero cfg l n = .error e) :
    e = .valueError := by
  rcases assemble_cases zero cfg l n with h' | ⟨b', h', hm⟩
  · rw [h] at h'; simpa using h'
  · rw [h] at h'; simp at h'

theorem assemble_error_ne {zero : V} {cfg : Cfg} {l : List (Sample V)} {n : Nat} :
    ¬ assemble zero cfg l n = .error .stopIteration := by
  intro h
  have := assemble_error h
  simp at this

theorem collect_error {w : World V D Key} {cfg : Cfg} : ∀ (n fuel : Nat) (s : St D Key) {e s'},
    collect w cfg fuel n s = some (.error e, s') →
    ∃ xs s1, Draws w cfg fuel s xs s1 ∧ xs.length < n ∧ getNext w cfg fuel s1 = some (.raise e, s')
  | 0, fuel, s, e, s', h => by simp [collect] at h
  | n + 1, fuel, s, e, s', h => by
    simp only [collect] at h
    split at h
    · simp at h
    · simp at h
    · rename_i hg
      split at h
      · simp at h
      · simp only [Option.some.injEq, Prod.mk.injEq, Except.error.injEq] at h
        obtain ⟨rfl, rfl⟩ := h
        exact ⟨[], s, .nil _, by simp, hg⟩
    · rename_i hg
      split at h
      · simp at h
      · simp at h
      · rename_i hc
        simp only [Option.some.injEq, Prod.mk.injEq, Except.error.injEq] at h
        obtain ⟨rfl, rfl⟩ := h
        obtain ⟨xs, s1, hd, hl, hg'⟩ := collect_error n fuel _ hc
        exact ⟨_ :: xs, s1, .cons hg hd, by simpa using hl, hg'⟩

theorem getBatch_error {zero : V} {w : World V D Key} {cfg : Cfg} {fuel n : Nat} {s s' : St D Key} {e : Exc}
    (he : e ≠ .stopIteration) (hv : e ≠ .valueError) (h : getBatch zero w cfg fuel n s = some (.error e, s')) :
    ∃ xs s1, Draws w cfg fuel s xs s1 ∧ xs.length < n ∧ getNext w cfg fuel s1 = some (.raise e, s') := by
  unfold getBatch at h
  cases hc : collect w cfg fuel n s with
  | none => rw [hc] at h; simp at h
  | some res =>
    obtain ⟨r0, s0⟩ := res
    rw [hc] at h
    cases r0 with
    | error e0 =>
      simp only [Option.some.injEq, Prod.mk.injEq, Except.error.injEq] at h
      obtain ⟨rfl, rfl⟩ := h
      exact collect_error n fuel s hc
    | ok xs =>
      exfalso
      simp only at h
      split at h
      · split at h
        · simp only [Option.some.injEq, Prod.mk.injEq] at h
          exact hv (assemble_error h.1)
        · simp only [Option.some.injEq, Prod.mk.injEq, Except.error.injEq] at h
          exact he h.1.symm
      · simp only [Option.some.injEq, Prod.mk.injEq] at h
        exact hv (assemble_error h.1)

/-- A request that returned a batch. -/
theorem getBatch_collect {zero : V} {w : World V D Key} {cfg : Cfg} (hns : ∀ p d i, w.slice p d i ≠ .fail .stopIteration)
    (hw : WorldWF w) {fuel n : Nat} {s s' : St D Key} {b : Batch V} (h : getBatch zero w cfg fuel n s = some (.ok b, s')) :
    ∃ xs, collect w cfg fuel n s = some (.ok xs, s') ∧ xs ≠ [] ∧ Shows zero xs n b ∧ assemble zero cfg xs n = .ok b := by
  unfold getBatch at h
  cases hc : collect w cfg fuel n s with
  | none => rw [hc] at h; simp at h
  | some res =>
    obtain ⟨r, s0⟩ := res
    rw [hc] at h
    cases r with
    | error e => simp at h
    | ok xs =>
      obtain ⟨s1, hd, hcase⟩ := collect_draws n fuel s hc
      have hle := collect_length n fuel s hc
      have hwf : ∀ x ∈ xs, x.WF := fun x hx => by
        obtain ⟨p, d, i, hs⟩ := draws_slice hd x hx
        exact hw p d i x hs
      have hloop : cfg.loop = true → xs.length = n := by
        intro hl
        rcases hcase with ⟨h, _⟩ | ⟨_, h | h⟩
        · exact h
        · have := (getNext_stop fuel _ _ h).1; simp [hl] at this
        · exact absurd h (getNext_no_raise_stop hns fuel _ _)
      simp only at h
      have hne : ¬ xs.isEmpty = true := by
        intro hxe
        rw [if_pos hxe] at h
        have hx : xs = [] := List.isEmpty_iff.mp hxe
        subst hx
        split at h
        · simp only [Option.some.injEq, Prod.mk.injEq] at h
          exact absurd rfl (assemble_ok h.1 hle hloop (by simp)).1
        · simp at h
      rw [if_neg hne] at h
      simp only [Option.some.injEq, Prod.mk.injEq] at h
      obtain ⟨h1, rfl⟩ := h
      obtain ⟨hx, hs⟩ := assemble_ok h1 hle hloop hwf
      exact ⟨xs, rfl, hx, hs, h1⟩

/-- A request that returned a batch or reported exhaustion. -/
theorem getBatch_collect' {zero : V} {w : World V D Key} {cfg : Cfg} (hns : ∀ p d i, w.slice p d i ≠ .fail .stopIteration)
    (hw : WorldWF w) {fuel n : Nat} {s s' : St D Key} {r : Except Exc (Batch V)}
    (h : getBatch zero w cfg fuel n s = some (r, s')) (hr : (∃ b, r = .ok b) ∨ r = .error .stopIteration) :
    ∃ xs, collect w cfg fuel n s = some (.ok xs, s') ∧ (∀ b, r = .ok b → Shows zero xs n b) ∧
      (r = .error .stopIteration → xs = []) := by
  rcases hr with ⟨b, rfl⟩ | rfl
  · obtain ⟨xs, h1, _, h3, _⟩ := getBatch_collect hns hw h
    exact ⟨xs, h1, fun b' hb' => by simp only [Except.ok.injEq] at hb'; rw [← hb']; exact h3, by simp⟩
  · unfold getBatch at h
    cases hc : collect w cfg fuel n s with
    | none => rw [hc] at h; simp at h
    | some res =>
      obtain ⟨r, s0⟩ := res
      rw [hc] at h
      cases r with
      | error e =>
        simp only [Option.some.injEq, Prod.mk.injEq, Except.error.injEq] at h
        obtain ⟨rfl, rfl⟩ := h
        exact absurd hc (collect_error_ne n fuel s)
      | ok xs =>
        simp only at h
        split at h
        · rename_i hx
          split at h
          · simp only [Option.some.injEq, Prod.mk.injEq] at h
            exact absurd h.1 assemble_error_ne
          · simp only [Option.some.injEq, Prod.mk.injEq, true_and] at h
            rw [h]
            exact ⟨xs, rfl, by simp, fun _ => List.isEmpty_iff.mp hx⟩
        · simp only [Option.some.injEq, Prod.mk.injEq] at h
          exact absurd h.1 assemble_error_ne

/-- A request that raised `StopIteration` or returned a blank row ran out of samples. -/
theorem getBatch_short {zero : V} {w : World V D Key} {cfg : Cfg} (hloop : cfg.loop = false) {fuel n : Nat} {s s' : St D Key}
    {r : Except Exc (Batch V)} (h : getBatch zero w cfg fuel n s = some (r, s')) (hn : 0 < n)
    (hr : r = .error .stopIteration ∨ ∃ b, r = .ok b ∧ false ∈ b.mask) :
    ∃ xs, collect w cfg fuel n s = some (.ok xs, s') ∧ xs.length < n := by
  unfold getBatch at h
  cases hc : collect w cfg fuel n s with
  | none => rw [hc] at h; simp at h
  | some res =>
    obtain ⟨r0, s0⟩ := res
    rw [hc] at h
    cases r0 with
    | error e =>
      exfalso
      simp only [Option.some.injEq, Prod.mk.injEq] at h
      obtain ⟨rfl, rfl⟩ := h
      rcases hr with h | ⟨b, h, _⟩
      · simp only [Except.error.injEq] at h
        subst h
        exact collect_error_ne n fuel s hc
      · simp at h
    | ok xs =>
      simp only [hloop, Bool.false_eq_true, if_false] at h
      by_cases hx : xs.isEmpty = true
      · rw [if_pos hx] at h
        simp only [Option.some.injEq, Prod.mk.injEq] at h
        have : xs = [] := List.isEmpty_iff.mp hx
        subst this
        exact ⟨[], by rw [h.2], hn⟩
      · rw [if_neg hx] at h
        simp only [Option.some.injEq, Prod.mk.injEq] at h
        obtain ⟨h1, rfl⟩ := h
        refine ⟨xs, rfl, ?_⟩
        by_contra hge
        have hmask : ∀ b, assemble zero cfg xs n = .ok b → b.mask = List.replicate n true := by
          intro b hb
          rw [assemble_mask hb]
          simp only [if_neg (fun hh : xs.length < n ∧ cfg.loop = false => hge hh.1)]
        rcases hr with hr | ⟨b, hb, hm⟩
        · rw [hr] at h1; exact assemble_error_ne h1
        · rw [hb] at h1
          rw [hmask b h1] at hm
          simp at hm

end Verif.Base
