import Verif.Spec.Racing
import Verif.Props.Interrupt
import Verif.Props.Formats
/-!
# C179: threads that share a scheduler
-/

namespace Verif.Racing
open Verif Verif.Base Verif.Formats
open Verif.Interrupt (Raw)

variable {V D Key : Type}

/-! ## What every schedule delivers -/

/-- Whatever a program reads, as long as it is listed, it ends as wished. -/
private inductive Good (L : List String) (load : String → Except Exc D) (Q : Next V → Prop) : Prog V D → Prop
  | file {k : Option String → Prog V D} : (∀ o : Option String, (∀ p, o = some p → p ∈ L) → Good L load Q (k o)) → Good L load Q (.file k)
  | data {k : Option D → Prog V D} : (∀ o : Option D, (∀ d, o = some d → ∃ p ∈ L, load p = .ok d) → Good L load Q (k o)) → Good L load Q (.data k)
  | idx {k : Nat → Prog V D} : (∀ i, Good L load Q (k i)) → Good L load Q (.idx k)
  | ok {x : Sample V} : Q (.ret x) → Good L load Q (.ret (.ok x))
  | ended : Good L load Q (.ret .ended)
  | fail {e : Exc} : Q (.raise e) → Good L load Q (.ret (.fail e))

private def PcOk (L : List String) (load : String → Except Exc D) (Q : Next V → Prop) : TPc V D Key → Prop
  | .gather _ todo names => (∀ i ∈ todo, i < L.length) ∧ (∀ p ∈ names, p ∈ L) ∧ names.length + todo.length = L.length
  | .readPath l => ∀ p ∈ l, p ∈ L
  | .compare p | .dropFile p | .dropData p | .load p | .setFile p => p ∈ L
  | .slice p => Good L load Q p
  | .readSlice x | .storeSlice x _ => Q (.ret x)
  | .done r => Q r
  | _ => True

private structure SharedOk (L : List String) (load : String → Except Exc D) (s : Raw D Key) : Prop where
  sub : ∀ p ∈ s.fileList, p ∈ L
  len : s.fileList.length = L.length
  file : ∀ p, s.cachedFile = some p → p ∈ L
  data : ∀ d, s.cachedData = some d → ∃ p ∈ L, load p = .ok d

private theorem after_ok {L : List String} {load : String → Except Exc D} {Q : Next V → Prop} (b : Bool) : PcOk L load Q (afterReset b : TPc V D Key) := by
  cases b <;> exact trivial

private theorem rstep_ok {w : RWorld V D Key} {c : Cfg} {L : List String} {Q : Next V → Prop} (hp : c.randomize = true → Permutes w.perm)
    (hg : Good L w.load Q w.prog) (h1 : Q .stop) (h2 : Q (.raise .indexError)) {pc : TPc V D Key} {s : Raw D Key} (hk : ∀ b, pc = .readKey b → c.randomize = true)
    (hk' : ∀ b k, pc = .storeKey b k → c.randomize = true) (hpc : PcOk L w.load Q pc)
    (hs : SharedOk L w.load s) :
    PcOk L w.load Q (rstep w c (pc, s)).1 ∧ SharedOk L w.load (rstep w c (pc, s)).2 ∧ (∀ b, (rstep w c (pc, s)).1 = .readKey b → c.randomize = true) ∧
      (∀ b k, (rstep w c (pc, s)).1 = .storeKey b k → c.randomize = true) := by
  have aft : ∀ b b', (afterReset b : TPc V D Key) ≠ .readKey b' := by intro b b'; cases b <;> simp [afterReset]
  have aft' : ∀ b b' k, (afterReset b : TPc V D Key) ≠ .storeKey b' k := by intro b b' k; cases b <;> simp [afterReset]
  cases pc with
  | idle => exact ⟨trivial, hs, by simp [rstep], by simp [rstep]⟩
  | test => simp only [rstep]; split <;> refine ⟨?_, hs, by simp, by simp⟩ <;> trivial
  | wrap => simp only [rstep]; split <;> exact ⟨trivial, hs, by simp, by simp⟩
  | resetIndex b => exact ⟨trivial, ⟨hs.sub, hs.len, hs.file, hs.data⟩, by simp [rstep], by simp [rstep]⟩
  | resetSlice b => exact ⟨trivial, ⟨hs.sub, hs.len, hs.file, hs.data⟩, by simp [rstep], by simp [rstep]⟩
  | resetData b => exact ⟨trivial, ⟨hs.sub, hs.len, hs.file, by simp [rstep]⟩, by simp [rstep], by simp [rstep]⟩
  | resetFile b =>
    simp only [rstep]
    split
    · exact ⟨trivial, ⟨hs.sub, hs.len, by simp, hs.data⟩, fun _ _ => by assumption, by simp⟩
    · exact ⟨after_ok b, ⟨hs.sub, hs.len, by simp, hs.data⟩, fun b' h => absurd h (aft b b'), fun b' k h => absurd h (aft' b b' k)⟩
  | readKey b => exact ⟨trivial, hs, by simp [rstep], fun _ _ _ => hk b rfl⟩
  | storeKey b key =>
    refine ⟨⟨?_, by simp, ?_⟩, ⟨hs.sub, hs.len, hs.file, hs.data⟩, by simp [rstep], by simp [rstep]⟩
    · intro i hi
      have := (hp (hk' b key rfl) _ _).mem_iff.1 hi
      rw [List.mem_range, hs.len] at this
      exact this
    · rw [(hp (hk' b key rfl) _ _).length_eq, List.length_range, hs.len]
      simp
  | gather b todo names =>
    cases todo with
    | nil =>
      obtain ⟨_, h4, h5⟩ := hpc
      refine ⟨after_ok b, ⟨h4, by simpa [rstep] using h5, hs.file, hs.data⟩, fun b' h => absurd h (aft b b'), fun b' k h => absurd h (aft' b b' k)⟩
    | cons i todo =>
      obtain ⟨h3, h4, h5⟩ := hpc
      refine ⟨⟨fun j hj => h3 j (List.mem_cons_of_mem _ hj), ?_, ?_⟩, hs, by simp [rstep], by simp [rstep]⟩
      · intro p hp'
        rcases List.mem_append.1 hp' with hp' | hp'
        · exact h4 p hp'
        · have hi : i < s.fileList.length := by rw [hs.len]; exact h3 i (List.mem_cons_self ..)
          rw [List.mem_singleton] at hp'
          rw [hp', List.getD_eq_getElem?_getD, List.getElem?_eq_getElem hi]
          exact hs.sub _ (List.getElem_mem hi)
      · simp only [List.length_append, List.length_cons, List.length_nil] at h5 ⊢
        omega
  | readList => exact ⟨hs.sub, hs, by simp [rstep], by simp [rstep]⟩
  | readPath l =>
    simp only [rstep]
    split
    · exact ⟨h2, hs, by simp, by simp⟩
    · rename_i path hpath
      exact ⟨hpc path (List.mem_of_getElem? hpath), hs, by simp, by simp⟩
  | compare p => simp only [rstep]; split <;> refine ⟨?_, hs, by simp, by simp⟩ <;> first | exact hg | exact hpc
  | dropFile p => exact ⟨hpc, ⟨hs.sub, hs.len, by simp [rstep], hs.data⟩, by simp [rstep], by simp [rstep]⟩
  | dropData p => exact ⟨hpc, ⟨hs.sub, hs.len, hs.file, by simp [rstep]⟩, by simp [rstep], by simp [rstep]⟩
  | load p =>
    simp only [rstep]
    split
    · rename_i d hd
      refine ⟨hpc, ⟨hs.sub, hs.len, hs.file, ?_⟩, by simp, by simp⟩
      intro d' h
      simp only [Option.some.injEq] at h
      exact ⟨p, hpc, h ▸ hd⟩
    · exact ⟨trivial, hs, by simp, by simp⟩
  | setFile p =>
    refine ⟨trivial, ⟨hs.sub, hs.len, ?_, hs.data⟩, by simp [rstep], by simp [rstep]⟩
    intro q h
    simp only [rstep, Option.some.injEq] at h
    exact h ▸ hpc
  | setSlice => exact ⟨hg, ⟨hs.sub, hs.len, hs.file, hs.data⟩, by simp [rstep], by simp [rstep]⟩
  | slice p =>
    have hpc' : Good L w.load Q p := hpc
    cases hpc' with
    | file h => exact ⟨h _ hs.file, hs, by simp [rstep], by simp [rstep]⟩
    | data h => exact ⟨h _ hs.data, hs, by simp [rstep], by simp [rstep]⟩
    | idx h => exact ⟨h _, hs, by simp [rstep], by simp [rstep]⟩
    | ok h => exact ⟨h, hs, by simp [rstep], by simp [rstep]⟩
    | ended => exact ⟨trivial, hs, by simp [rstep], by simp [rstep]⟩
    | fail h => exact ⟨h, hs, by simp [rstep], by simp [rstep]⟩
  | readSlice x => exact ⟨hpc, hs, by simp [rstep], by simp [rstep]⟩
  | storeSlice x i => exact ⟨hpc, ⟨hs.sub, hs.len, hs.file, hs.data⟩, by simp [rstep], by simp [rstep]⟩
  | readIndex => exact ⟨trivial, hs, by simp [rstep], by simp [rstep]⟩
  | storeIndex i => exact ⟨trivial, ⟨hs.sub, hs.len, hs.file, hs.data⟩, by simp [rstep], by simp [rstep]⟩
  | done r => exact ⟨hpc, hs, by simp [rstep], by simp [rstep]⟩

private structure AllOk (L : List String) (load : String → Except Exc D) (c : Cfg) (Q : Next V → Prop) (s : RSt V D Key) : Prop where
  shared : SharedOk L load s.shared
  pcs : ∀ i, PcOk L load Q (s.pc i)
  keys : ∀ i b, s.pc i = .readKey b → c.randomize = true
  keys' : ∀ i b k, s.pc i = .storeKey b k → c.randomize = true
  out : ∀ q ∈ s.out, Q q.2

private theorem ract_ok {w : RWorld V D Key} {c : Cfg} {L : List String} {Q : Next V → Prop} (hp : c.randomize = true → Permutes w.perm)
    (hg : Good L w.load Q w.prog) (h1 : Q .stop) (h2 : Q (.raise .indexError)) {s : RSt V D Key} (h : AllOk L w.load c Q s) (a : Act) :
    AllOk L w.load c Q (ract w c s a) := by
  have set : ∀ (i : Nat) (x : TPc V D Key) (sh : Raw D Key), PcOk L w.load Q x → (∀ b, x = .readKey b → c.randomize = true) →
      (∀ b k, x = .storeKey b k → c.randomize = true) → SharedOk L w.load sh →
      AllOk L w.load c Q { s with shared := sh, pc := setPc s.pc i x } := by
    intro i x sh hx hx1 hx2 hsh
    refine ⟨hsh, ?_, ?_, ?_, h.out⟩
    · intro j
      show PcOk L w.load Q (if j = i then x else s.pc j)
      split
      · exact hx
      · exact h.pcs j
    · intro j b hb
      change (if j = i then x else s.pc j) = _ at hb
      split at hb
      · exact hx1 b hb
      · exact h.keys j b hb
    · intro j b k hb
      change (if j = i then x else s.pc j) = _ at hb
      split at hb
      · exact hx2 b k hb
      · exact h.keys' j b k hb
  cases a with
  | call i =>
    simp only [ract]
    split
    · exact set i .test s.shared trivial (by simp) (by simp) h.shared
    · exact h
  | reset i =>
    simp only [ract]
    split
    · exact set i (.resetIndex false) s.shared trivial (by simp) (by simp) h.shared
    · exact h
  | step i =>
    obtain ⟨a1, a2, a3, a4⟩ := rstep_ok hp hg h1 h2 (h.keys i) (h.keys' i) (h.pcs i) h.shared
    exact set i _ _ a1 a3 a4 a2
  | take i =>
    simp only [ract]
    split
    · rename_i r hr
      have := set i .idle s.shared trivial (by simp) (by simp) h.shared
      refine ⟨this.shared, this.pcs, this.keys, this.keys', ?_⟩
      intro q hq
      rcases List.mem_append.1 hq with hq | hq
      · exact h.out q hq
      · rw [List.mem_singleton] at hq
        subst hq
        have := h.pcs i
        rw [hr] at this
        exact this
    · exact h

private theorem rrun_ok {w : RWorld V D Key} {c : Cfg} {L : List String} {Q : Next V → Prop} (hp : c.randomize = true → Permutes w.perm)
    (hg : Good L w.load Q w.prog) (h1 : Q .stop) (h2 : Q (.raise .indexError)) (as : List Act) {s : RSt V D Key} (h : AllOk L w.load c Q s) :
    AllOk L w.load c Q (rrun w c as s) := by
  induction as generalizing s with
  | nil => exact h
  | cons a as ih => exact ih (ract_ok hp hg h1 h2 h a)

private theorem start_ok {w : RWorld V D Key} {c : Cfg} {Q : Next V → Prop} (hp : c.randomize = true → Permutes w.perm) (fl : List String) (key : Key) :
    AllOk fl w.load c Q (start w c fl key) := by
  have hperm : ((Base.init w.alone c fl key).fileList).Perm fl := shuffle_perm (w := w.alone) (cfg := c) (fun h => hp h) fl key
  refine ⟨⟨fun p h => hperm.mem_iff.1 h, hperm.length_eq, by simp [start, rinit, Raw.of, Base.init], by simp [start, rinit, Raw.of, Base.init]⟩, fun _ => trivial, ?_, ?_, by simp [start, rinit]⟩ <;>
    simp [start, rinit]

private theorem matGood (io : MatIO) (c : MatCfg) (split : Key → Key × Key) (perm : Key → Nat → List Nat) (L : List String) :
    Good L (matLoad io c) (fun r => r = .stop ∨ r = .raise .indexError ∨ r = .raise .runtimeError ∨ ∃ x, r = .ret x ∧ ∃ p ∈ L, Yields (matWorld io c split perm) p [x])
      (matProg c) := by
  refine .data fun o ho => ?_
  cases o with
  | none => exact .fail (.inr (.inr (.inl rfl)))
  | some d =>
    obtain ⟨p, hp, hd⟩ := ho d rfl
    refine .idx fun i => ?_
    split
    · exact .ended
    · have hy : Yields (matWorld io c split perm) p [if c.includeImages then d else { d with images1 := none, images2 := none }] := by
        have hl : (matWorld io c split perm).load p = .ok d := hd
        unfold Yields
        rw [hl]
        refine ⟨?_, ?_⟩
        · intro j hj
          simp only [List.length_cons, List.length_nil] at hj
          obtain rfl : j = 0 := by omega
          simp only [matWorld, matNext, List.getElem_cons_zero]
          split
          · simp_all
          · split <;> rfl
        · simp [matWorld, matNext]
      split
      · exact .ok (.inr (.inr (.inr ⟨_, rfl, p, hp, by simp_all⟩)))
      · exact .ok (.inr (.inr (.inr ⟨_, rfl, p, hp, by simp_all⟩)))

/-- **C179** (partial), MAT. Any number of threads, any interleaving of their reads and writes: a sample that is delivered is the sample of one of the listed files, with its
own flow field, images and name. Apart from `StopIteration` nothing is raised but `RuntimeError` and `IndexError`. Missing: that each file is delivered exactly once
(`C179_refuted_twice`, `C179_refuted_lost`), and that nothing is raised (`C179_refuted_raises`). -/
theorem C179_mat_partial (io : MatIO) (mc : MatCfg) (split : Key → Key × Key) (perm : Key → Nat → List Nat) (c : Cfg) (hp : c.randomize = true → Permutes perm)
    (fl : List String) (key : Key) (schedule : List Act) (i : Nat) (r : Next Rat)
    (h : (i, r) ∈ (rrun (matRWorld io mc split perm) c schedule (start (matRWorld io mc split perm) c fl key)).out) :
    r = .stop ∨ r = .raise .indexError ∨ r = .raise .runtimeError ∨ ∃ x, r = .ret x ∧ ∃ p ∈ fl, Yields (matWorld io mc split perm) p [x] :=
  (rrun_ok (w := matRWorld io mc split perm) hp (matGood io mc split perm fl) (.inl rfl) (.inr (.inl rfl)) schedule (start_ok hp fl key)).out (i, r) h

private theorem npGood (io : NpIO V) (split : Key → Key × Key) (perm : Key → Nat → List Nat) (L : List String) :
    Good L (npLoad io) (fun r => r = .stop ∨ r = .raise .indexError ∨ r = .raise .runtimeError ∨ ∃ x, r = .ret x ∧ ∃ p ∈ L, Yields (npWorld io false split perm) p [x])
      (npProg io false) := by
  refine .data fun o ho => ?_
  cases o with
  | none => exact .fail (.inr (.inr (.inl rfl)))
  | some d =>
    obtain ⟨p, hp, hd⟩ := ho d rfl
    refine .file fun q _ => ?_
    cases q with
    | none => exact .fail (.inr (.inr (.inl rfl)))
    | some q =>
      refine .idx fun i => ?_
      split
      · exact .ended
      · refine .ok (.inr (.inr (.inr ⟨_, rfl, p, hp, ?_⟩)))
        simp only [npLoad] at hd
        cases ha : io.npy p with
        | error e => rw [ha] at hd; simp [Except.map] at hd
        | ok a =>
          rw [ha] at hd
          simp only [Except.map, Except.ok.injEq] at hd
          subst hd
          have hl : (npWorld io false split perm).load p = .ok a := ha
          unfold Yields
          rw [hl]
          refine ⟨?_, ?_⟩
          · intro j hj
            simp only [List.length_cons, List.length_nil] at hj
            obtain rfl : j = 0 := by omega
            simp [npWorld, npNext]
          · simp [npWorld, npNext]

/-- **C179** (partial), NumPy without images: as for MAT. -/
theorem C179_numpy_partial (io : NpIO V) (split : Key → Key × Key) (perm : Key → Nat → List Nat) (c : Cfg) (hp : c.randomize = true → Permutes perm)
    (fl : List String) (key : Key) (schedule : List Act) (i : Nat) (r : Next V)
    (h : (i, r) ∈ (rrun (npRWorld io false split perm) c schedule (start (npRWorld io false split perm) c fl key)).out) :
    r = .stop ∨ r = .raise .indexError ∨ r = .raise .runtimeError ∨ ∃ x, r = .ret x ∧ ∃ p ∈ fl, Yields (npWorld io false split perm) p [x] :=
  (rrun_ok (w := npRWorld io false split perm) hp (npGood io split perm fl) (.inl rfl) (.inr (.inl rfl)) schedule (start_ok hp fl key)).out (i, r) h

private theorem npImgGood (io : NpIO V) (L : List String) :
    Good L (npLoad io) (fun r => ∀ x, r = .ret x → ∃ p ∈ L, io.npy p = .ok x.flow ∧ x.files = some [p]) (npProg io true) := by
  refine .data fun o ho => ?_
  cases o with
  | none => exact .fail (by simp)
  | some d =>
    obtain ⟨p, hp, hd⟩ := ho d rfl
    have hx : io.npy p = .ok d.flow ∧ d.files = some [p] := by
      simp only [npLoad] at hd
      cases ha : io.npy p with
      | error e => rw [ha] at hd; simp [Except.map] at hd
      | ok a =>
        rw [ha] at hd
        simp only [Except.map, Except.ok.injEq] at hd
        subst hd
        exact ⟨rfl, rfl⟩
    refine .file fun q _ => ?_
    cases q with
    | none => exact .fail (by simp)
    | some q =>
      refine .idx fun i => ?_
      split
      · exact .ended
      · refine .file fun q1 _ => ?_
        cases q1 with
        | none => exact .fail (by simp)
        | some q1 =>
          dsimp only
          split
          · exact .fail (by simp)
          · refine .file fun q2 _ => ?_
            cases q2 with
            | none => exact .fail (by simp)
            | some q2 =>
              dsimp only
              split
              · refine .ok fun x hr => ?_
                simp only [Next.ret.injEq] at hr
                subst hr
                exact ⟨p, hp, hx⟩
              · exact .fail (by simp)
              · exact .fail (by simp)

/-- **C179** (partial), NumPy with images: the flow field and the name that are delivered belong to the same listed file. Missing: that the images do too
(`C179_refuted_images`). -/
theorem C179_numpy_images_partial (io : NpIO V) (split : Key → Key × Key) (perm : Key → Nat → List Nat) (c : Cfg) (hp : c.randomize = true → Permutes perm)
    (fl : List String) (key : Key) (schedule : List Act) (i : Nat) (x : Sample V)
    (h : (i, .ret x) ∈ (rrun (npRWorld io true split perm) c schedule (start (npRWorld io true split perm) c fl key)).out) :
    ∃ p ∈ fl, io.npy p = .ok x.flow ∧ x.files = some [p] :=
  (rrun_ok (w := npRWorld io true split perm) hp (npImgGood io fl) (by simp) (by simp) schedule (start_ok hp fl key)).out (i, .ret x) h x rfl

private theorem h5_yields (files : String → H5File V) (split : Key → Key × Key) (perm : Key → Nat → List Nat) (p : String) (a : Arr V) (hl : h5Load (files p) = .ok a)
    (i : Nat) (f : Arr V) (hi : ¬ a.shape.getD 1 0 ≤ i) (hf : h5Slice a i = .ok f) :
    ∃ xs, Yields (h5World files split perm) p xs ∧ (⟨f, none, none, some [p]⟩ : Sample V) ∈ xs := by
  unfold h5Slice at hf
  split at hf
  · rename_i X Y Z C rest hs
    injection hf with hf
    have hY : a.shape[1]? = some Y := by rw [hs]; rfl
    have hiY : i < Y := by
      rw [hs] at hi
      exact Nat.not_le.1 hi
    refine ⟨(List.range Y).map fun j => ⟨⟨X :: Z :: C :: rest, (List.range X).flatMap (fun x => (a.data.drop ((x * Y + j) * Arr.size (Z :: C :: rest))).take (Arr.size (Z :: C :: rest)))⟩,
      none, none, some [p]⟩, ?_, ?_⟩
    · have hl' : (h5World files split perm).load p = .ok a := hl
      unfold Yields
      rw [hl']
      refine ⟨fun j hj => ?_, ?_⟩
      · simp only [List.length_map, List.length_range] at hj
        have e : h5Slice a j = .ok ⟨X :: Z :: C :: rest, (List.range X).flatMap (fun x => (a.data.drop ((x * Y + j) * Arr.size (Z :: C :: rest))).take (Arr.size (Z :: C :: rest)))⟩ := by
          simp only [h5Slice, hs]
        simp only [h5World, h5Next, hY, if_neg (Nat.not_le.2 hj), e, List.getElem_map, List.getElem_range]
      · simp only [h5World, h5Next, hY, List.length_map, List.length_range, Nat.le_refl, if_true]
    · refine List.mem_map.2 ⟨i, List.mem_range.2 hiY, ?_⟩
      rw [← hf]
  · exact absurd hf (by simp)

private theorem h5Good (files : String → H5File V) (split : Key → Key × Key) (perm : Key → Nat → List Nat) (L : List String) :
    Good L (fun p => h5Load (files p)) (fun r => ∀ x, r = .ret x → ∃ p ∈ L, ∃ xs y q, Yields (h5World files split perm) p xs ∧ y ∈ xs ∧ (q ∈ L ∨ q = "") ∧
      x = { y with files := some [q] }) h5Prog := by
  refine .data fun o0 _ => ?_
  split
  · exact .fail (by simp)
  refine .file fun q0 _ => ?_
  split
  · exact .fail (by simp)
  refine .idx fun i0 => .data fun o1 _ => ?_
  split
  · exact .fail (by simp)
  split
  · exact .fail (by simp)
  split
  · exact .ended
  refine .data fun o2 h2 => ?_
  split
  · exact .fail (by simp)
  rename_i a2
  obtain ⟨p, hp, hd⟩ := h2 a2 rfl
  refine .idx fun i2 => ?_
  split
  · exact .fail (by simp)
  rename_i hi
  split
  · exact .fail (by simp)
  rename_i f hf
  refine .file fun q hq => .ok fun x hr => ?_
  simp only [Next.ret.injEq] at hr
  subst hr
  obtain ⟨xs, h3, h4⟩ := h5_yields files split perm p a2 hd i2 f hi hf
  refine ⟨p, hp, xs, _, q.getD "", h3, h4, ?_, rfl⟩
  cases q with
  | none => exact .inr rfl
  | some q => exact .inl (hq q rfl)

/-- **C179** (partial), HDF5: the flow field that is delivered is one of the flow fields of a listed file; only the name may be that of another listed file, or missing.
Missing: that the name is right (`C179_refuted_name`). -/
theorem C179_hdf5_partial (files : String → H5File V) (split : Key → Key × Key) (perm : Key → Nat → List Nat) (c : Cfg) (hp : c.randomize = true → Permutes perm)
    (fl : List String) (key : Key) (schedule : List Act) (i : Nat) (x : Sample V)
    (h : (i, .ret x) ∈ (rrun (h5RWorld files split perm) c schedule (start (h5RWorld files split perm) c fl key)).out) :
    ∃ p ∈ fl, ∃ xs y q, Yields (h5World files split perm) p xs ∧ y ∈ xs ∧ (q ∈ fl ∨ q = "") ∧ x = { y with files := some [q] } :=
  (rrun_ok (w := h5RWorld files split perm) hp (h5Good files split perm fl) (by simp) (by simp) schedule (start_ok hp fl key)).out (i, .ret x) h x rfl

/-! ## Calls that do not overlap -/

private def rsteps (w : RWorld V D Key) (c : Cfg) : Nat → TPc V D Key × Raw D Key → TPc V D Key × Raw D Key
  | 0, x => x
  | n + 1, x => rsteps w c n (rstep w c x)

private theorem rsteps_add (w : RWorld V D Key) (c : Cfg) (m n : Nat) (x : TPc V D Key × Raw D Key) : rsteps w c (m + n) x = rsteps w c n (rsteps w c m x) := by
  induction m generalizing x with
  | zero => rw [Nat.zero_add]; rfl
  | succ m ih => rw [Nat.succ_add]; exact ih _

private theorem reaches_trans {w : RWorld V D Key} {c : Cfg} {x y z : TPc V D Key × Raw D Key} (h1 : ∃ m, rsteps w c m x = y) (h2 : ∃ m, rsteps w c m y = z) :
    ∃ m, rsteps w c m x = z := by
  obtain ⟨m, hm⟩ := h1
  obtain ⟨n, hn⟩ := h2
  exact ⟨m + n, by rw [rsteps_add, hm, hn]⟩

private theorem prog_steps (w : RWorld V D Key) (c : Cfg) (s : Raw D Key) (p : Prog V D) :
    ∃ m, rsteps w c m (.slice p, s) = (.slice (.ret (p.eval s.cachedFile s.cachedData s.sliceIdx)), s) := by
  induction p with
  | file k ih => exact reaches_trans ⟨1, rfl⟩ (ih s.cachedFile)
  | data k ih => exact reaches_trans ⟨1, rfl⟩ (ih s.cachedData)
  | idx k ih => exact reaches_trans ⟨1, rfl⟩ (ih s.sliceIdx)
  | ret r => exact ⟨0, rfl⟩

/-- Where a pass of the loop leads. -/
private def To (w : RWorld V D Key) (c : Cfg) (x : TPc V D Key × Raw D Key) : Step V D Key → Prop
  | .cont s1 => ∃ m, rsteps w c m x = (.test, Raw.of s1)
  | .ret y s1 => ∃ m, rsteps w c m x = (.done (.ret y), Raw.of s1)
  | .stop s1 => ∃ m, rsteps w c m x = (.done .stop, Raw.of s1)
  | .raise e s1 => ∃ m, rsteps w c m x = (.done (.raise e), Raw.of s1)

private theorem To.after {w : RWorld V D Key} {c : Cfg} {x y : TPc V D Key × Raw D Key} {o : Step V D Key} (h : ∃ m, rsteps w c m x = y) (ho : To w c y o) : To w c x o := by
  cases o <;> exact reaches_trans h ho

private theorem take_to (w : RWorld V D Key) (c : Cfg) (s : Base.St D Key) (p : String) (d : D) (h : s.cached = some (p, d)) :
    To w c (.slice w.prog, Raw.of s) (takeSlice w.alone s p d) := by
  have h1 : (Raw.of s).cachedFile = some p := by simp [Raw.of, h]
  have h2 : (Raw.of s).cachedData = some d := by simp [Raw.of, h]
  refine To.after (prog_steps w c (Raw.of s) w.prog) ?_
  rw [h1, h2]
  have h3 : w.alone.slice p d s.sliceIdx = w.prog.eval (some p) (some d) (Raw.of s).sliceIdx := rfl
  unfold takeSlice
  rw [h3]
  cases w.prog.eval (some p) (some d) (Raw.of s).sliceIdx with
  | ok x => exact ⟨3, rfl⟩
  | ended => exact ⟨3, rfl⟩
  | fail e => exact ⟨1, rfl⟩

private theorem load_to (w : RWorld V D Key) (c : Cfg) (s : Base.St D Key) (p : String) (h : s.fileList[s.index]? = some p) (hc : s.cached.map Prod.fst ≠ some p) :
    To w c (.readList, Raw.of s) (match w.alone.load p with
        | .ok d' => takeSlice w.alone { s with cached := some (p, d'), sliceIdx := 0 } p d'
        | .error _ => Step.cont { s with cached := none, index := s.index + 1 }) := by
  have e1 : rstep w c (.readPath s.fileList, Raw.of s) = (.compare p, Raw.of s) := by
    have h' : s.fileList[(Raw.of s).index]? = some p := h
    simp only [rstep, h']
  have e2 : rstep w c (.compare p, Raw.of s) = (.dropFile p, Raw.of s) := by
    have h' : (Raw.of s).cachedFile ≠ some p := hc
    simp only [rstep, if_neg h']
  refine To.after (y := (.dropFile p, Raw.of s)) ⟨3, ?_⟩ ?_
  · show rstep w c (rstep w c (.readPath s.fileList, Raw.of s)) = _
    rw [e1, e2]
  have e3 : rsteps w c 2 (.dropFile p, Raw.of s) = (.load p, Raw.of { s with cached := none }) := rfl
  refine To.after ⟨2, e3⟩ ?_
  cases hl : w.load p with
  | error e =>
    have hl' : w.alone.load p = .error e := hl
    rw [hl']
    refine ⟨3, ?_⟩
    have e4 : rstep w c (.load p, Raw.of { s with cached := none }) = (.readIndex, Raw.of { s with cached := none }) := by simp only [rstep, hl]
    show rstep w c (rstep w c (rstep w c (.load p, Raw.of { s with cached := none }))) = _
    rw [e4]
    rfl
  | ok d =>
    have hl' : w.alone.load p = .ok d := hl
    rw [hl']
    refine To.after (y := (.slice w.prog, Raw.of { s with cached := some (p, d), sliceIdx := 0 })) ⟨3, ?_⟩ (take_to w c _ p d rfl)
    have e4 : rstep w c (.load p, Raw.of { s with cached := none }) = (.setFile p, { Raw.of ({ s with cached := none } : Base.St D Key) with cachedData := some d }) := by simp only [rstep, hl]
    show rstep w c (rstep w c (rstep w c (.load p, Raw.of { s with cached := none }))) = _
    rw [e4]
    rfl

private theorem body_to (w : RWorld V D Key) (c : Cfg) (s : Base.St D Key) : To w c (.readList, Raw.of s) (body w.alone s) := by
  unfold body
  cases hp : s.fileList[s.index]? with
  | none =>
    refine ⟨2, ?_⟩
    have h' : s.fileList[(Raw.of s).index]? = none := hp
    show rstep w c (.readPath s.fileList, Raw.of s) = _
    simp only [rstep, h']
  | some p =>
    dsimp only
    cases hc : s.cached with
    | none => exact load_to w c s p hp (by rw [hc]; simp)
    | some qd =>
      obtain ⟨q, d⟩ := qd
      dsimp only
      by_cases hq : q = p
      · subst hq
        rw [if_pos rfl]
        refine To.after (y := (.slice w.prog, Raw.of s)) ⟨3, ?_⟩ (take_to w c s q d hc)
        have e1 : rstep w c (.readPath s.fileList, Raw.of s) = (.compare q, Raw.of s) := by
          have h' : s.fileList[(Raw.of s).index]? = some q := hp
          simp only [rstep, h']
        have e2 : rstep w c (.compare q, Raw.of s) = (.slice w.prog, Raw.of s) := by
          have h' : (Raw.of s).cachedFile = some q := by simp [Raw.of, hc]
          simp only [rstep, h', if_true]
        show rstep w c (rstep w c (.readPath s.fileList, Raw.of s)) = _
        rw [e1, e2]
      · rw [if_neg hq]
        exact load_to w c s p hp (by rw [hc]; simpa using hq)

private theorem gather_steps (w : RWorld V D Key) (c : Cfg) (b : Bool) (s : Raw D Key) (todo : List Nat) (names : List String) :
    ∃ m, rsteps w c m (.gather b todo names, s) = (afterReset b, { s with fileList := names ++ pick s.fileList todo }) := by
  induction todo generalizing names with
  | nil => exact ⟨1, by simp [rsteps, rstep, pick]⟩
  | cons i todo ih =>
    obtain ⟨m, hm⟩ := ih (names ++ [s.fileList.getD i ""])
    refine reaches_trans ⟨1, rfl⟩ ⟨m, ?_⟩
    show rsteps w c m (.gather b todo (names ++ [s.fileList.getD i ""]), s) = _
    rw [hm]
    simp [pick]

private theorem reset_to (w : RWorld V D Key) (c : Cfg) (b : Bool) (r : Raw D Key) :
    ∃ m, rsteps w c m (.resetIndex b, r) =
      (afterReset b, Raw.of (Base.reset w.alone c { fileList := r.fileList, index := r.index, cached := none, sliceIdx := r.sliceIdx, key := r.key })) := by
  have e3 : rsteps w c 3 (.resetIndex b, r) = (.resetFile b, { r with index := 0, sliceIdx := 0, cachedData := none }) := rfl
  refine reaches_trans ⟨3, e3⟩ ?_
  cases hr : c.randomize with
  | false => exact ⟨1, by simp [rsteps, rstep, hr, Base.reset, shuffle, Raw.of]⟩
  | true =>
    have e4 : rsteps w c 3 (.resetFile b, { r with index := 0, sliceIdx := 0, cachedData := none }) =
        (.gather b (w.perm (w.split r.key).2 r.fileList.length) [],
          { r with index := 0, sliceIdx := 0, cachedData := none, cachedFile := none, key := (w.split r.key).1 }) := by
      simp [rsteps, rstep, hr]
    refine reaches_trans ⟨3, e4⟩ ?_
    obtain ⟨m, hm⟩ := gather_steps w c b { r with index := 0, sliceIdx := 0, cachedData := none, cachedFile := none, key := (w.split r.key).1 }
      (w.perm (w.split r.key).2 r.fileList.length) []
    refine ⟨m, hm.trans ?_⟩
    simp [Base.reset, shuffle, hr, Raw.of, RWorld.alone]

private theorem iter_to (w : RWorld V D Key) (c : Cfg) (s : Base.St D Key) : To w c (.test, Raw.of s) (iter w.alone c s) := by
  unfold iter
  by_cases hi : s.index < s.fileList.length
  · rw [if_pos hi]
    refine To.after (y := (.readList, Raw.of s)) ⟨2, ?_⟩ (body_to w c s)
    have h1 : (Raw.of s).index < (Raw.of s).fileList.length := hi
    have h2 : ¬ (Raw.of s).fileList.length ≤ (Raw.of s).index := by omega
    simp only [rsteps, rstep, h1, true_or, if_true, if_neg h2]
  · rw [if_neg hi]
    have h1 : ¬ (Raw.of s).index < (Raw.of s).fileList.length := hi
    have h2 : (Raw.of s).fileList.length ≤ (Raw.of s).index := by omega
    by_cases hl : c.loop = true
    · rw [if_pos hl]
      refine To.after (y := (.resetIndex true, Raw.of s)) ⟨2, ?_⟩ (To.after ?_ (body_to w c (Base.reset w.alone c s)))
      · simp only [rsteps, rstep, hl, or_true, if_true, if_pos h2]
      · exact reset_to w c true (Raw.of s)
    · rw [if_neg hl]
      refine ⟨1, ?_⟩
      simp only [rsteps, rstep, h1, hl, or_self, if_false]
      rfl

private theorem getNext_to (w : RWorld V D Key) (c : Cfg) (fuel : Nat) (s : Base.St D Key) (r : Next V) (t : Base.St D Key)
    (h : Base.getNext w.alone c fuel s = some (r, t)) : ∃ m, rsteps w c m (.test, Raw.of s) = (.done r, Raw.of t) := by
  induction fuel generalizing s with
  | zero => simp [Base.getNext] at h
  | succ fuel ih =>
    have hi := iter_to w c s
    rw [Base.getNext] at h
    cases ho : iter w.alone c s with
    | cont s1 =>
      rw [ho] at h hi
      exact reaches_trans hi (ih s1 h)
    | ret x s1 =>
      rw [ho] at h hi
      simp only [Option.some.injEq, Prod.mk.injEq] at h
      obtain ⟨rfl, rfl⟩ := h
      exact hi
    | stop s1 =>
      rw [ho] at h hi
      simp only [Option.some.injEq, Prod.mk.injEq] at h
      obtain ⟨rfl, rfl⟩ := h
      exact hi
    | raise e s1 =>
      rw [ho] at h hi
      simp only [Option.some.injEq, Prod.mk.injEq] at h
      obtain ⟨rfl, rfl⟩ := h
      exact hi

private theorem rrun_append (w : RWorld V D Key) (c : Cfg) (l m : List Act) (s : RSt V D Key) : rrun w c (l ++ m) s = rrun w c m (rrun w c l s) := by
  induction l generalizing s with
  | nil => rfl
  | cons a l ih => exact ih _

private theorem setPc_self (pc : Nat → TPc V D Key) (i : Nat) : setPc pc i (pc i) = pc := by
  funext j
  unfold setPc
  split
  · rename_i h; rw [h]
  · rfl

private theorem setPc_set (pc : Nat → TPc V D Key) (i : Nat) (x y : TPc V D Key) : setPc (setPc pc i x) i y = setPc pc i y := by
  funext j
  unfold setPc
  split <;> rfl

private theorem setPc_at (pc : Nat → TPc V D Key) (i : Nat) (x : TPc V D Key) : setPc pc i x i = x := if_pos rfl

private theorem rrun_steps (w : RWorld V D Key) (c : Cfg) (i k : Nat) (sh : Raw D Key) (pc : Nat → TPc V D Key) (x : TPc V D Key) (out : List (Nat × Next V)) :
    rrun w c (List.replicate k (.step i)) { shared := sh, pc := setPc pc i x, out := out } =
      { shared := (rsteps w c k (x, sh)).2, pc := setPc pc i (rsteps w c k (x, sh)).1, out := out } := by
  induction k generalizing x sh with
  | zero => rfl
  | succ k ih =>
    rw [List.replicate_succ]
    show rrun w c (List.replicate k (.step i)) (ract w c _ (.step i)) = _
    have e : ract w c { shared := sh, pc := setPc pc i x, out := out } (.step i) =
        { shared := (rstep w c (x, sh)).2, pc := setPc pc i (rstep w c (x, sh)).1, out := out } := by
      simp only [ract, setPc_at, setPc_set]
    rw [e, ih]
    rfl

private theorem call_alone (w : RWorld V D Key) (c : Cfg) (fuel : Nat) (s t : Base.St D Key) (r : Next V) (h : Base.getNext w.alone c fuel s = some (r, t)) (i : Nat)
    (pc : Nat → TPc V D Key) (hi : pc i = .idle) (out : List (Nat × Next V)) :
    ∃ k, rrun w c (callAlone i k) { shared := Raw.of s, pc := pc, out := out } = { shared := Raw.of t, pc := pc, out := out ++ [(i, r)] } := by
  obtain ⟨k, hk⟩ := getNext_to w c fuel s r t h
  refine ⟨k, ?_⟩
  unfold callAlone
  show rrun w c (List.replicate k (.step i) ++ [.take i]) (ract w c _ (.call i)) = _
  have e : ract w c { shared := Raw.of s, pc := pc, out := out } (.call i) = { shared := Raw.of s, pc := setPc pc i .test, out := out } := by
    simp only [ract, hi]
  rw [e, rrun_append, rrun_steps, hk]
  simp only [rrun, ract, setPc_at, setPc_set]
  rw [← hi, setPc_self]

private theorem reset_alone (w : RWorld V D Key) (c : Cfg) (r : Raw D Key) (i : Nat) (pc : Nat → TPc V D Key) (hi : pc i = .idle) (out : List (Nat × Next V)) :
    ∃ k, rrun w c (resetAlone i k) { shared := r, pc := pc, out := out } =
      { shared := Raw.of (Base.reset w.alone c { fileList := r.fileList, index := r.index, cached := none, sliceIdx := r.sliceIdx, key := r.key }), pc := pc, out := out } := by
  obtain ⟨k, hk⟩ := reset_to w c false r
  refine ⟨k, ?_⟩
  unfold resetAlone
  show rrun w c (List.replicate k (.step i)) (ract w c _ (.reset i)) = _
  have e : ract w c { shared := r, pc := pc, out := out } (.reset i) = { shared := r, pc := setPc pc i (.resetIndex false), out := out } := by
    simp only [ract, hi]
  rw [e, rrun_steps, hk]
  show ({ shared := _, pc := setPc pc i .idle, out := out } : RSt V D Key) = _
  rw [← hi, setPc_self]

/-- **C179**: as long as no two calls overlap, it does not matter which thread makes which call: calls and resets in any order, by any threads, end as they do without
threads. -/
theorem C179_serial (w : RWorld V D Key) (c : Cfg) (s t : Base.St D Key) (ops : List Op) (rs : List (Nat × Next V)) (h : Sequence w.alone c s ops rs t) :
    ∃ ks : List Nat, ks.length = ops.length ∧
      rrun w c (List.zipWith Op.alone ops ks).flatten (rinit (Raw.of s)) = { shared := Raw.of t, pc := fun _ => .idle, out := rs } := by
  suffices H : ∀ out : List (Nat × Next V), ∃ ks : List Nat, ks.length = ops.length ∧
      rrun w c (List.zipWith Op.alone ops ks).flatten { shared := Raw.of s, pc := fun _ => .idle, out := out } =
        { shared := Raw.of t, pc := fun _ => .idle, out := out ++ rs } by
    exact H []
  induction h with
  | nil s => exact fun out => ⟨[], rfl, by simp [rrun]⟩
  | @call s i fuel r t ops rs u h1 _ ih =>
    intro out
    obtain ⟨k, hk⟩ := call_alone w c fuel s t r h1 i (fun _ => .idle) rfl out
    obtain ⟨ks, e1, e2⟩ := ih (out ++ [(i, r)])
    refine ⟨k :: ks, by simp [e1], ?_⟩
    rw [List.zipWith_cons_cons, List.flatten_cons, rrun_append]
    show rrun w c _ (rrun w c (callAlone i k) _) = _
    rw [hk, e2, List.append_assoc]
    rfl
  | @reset s i ops rs u _ ih =>
    intro out
    obtain ⟨k, hk⟩ := reset_alone w c (Raw.of s) i (fun _ => .idle) rfl out
    obtain ⟨ks, e1, e2⟩ := ih out
    refine ⟨k :: ks, by simp [e1], ?_⟩
    rw [List.zipWith_cons_cons, List.flatten_cons, rrun_append]
    show rrun w c _ (rrun w c (resetAlone i k) _) = _
    rw [hk]
    exact e2

/-- **C179** (the machine is the code): without other threads the three schedulers are those of the model without threads. -/
theorem C179_mat_alone {Key : Type} (io : MatIO) (mc : MatCfg) (split : Key → Key × Key) (perm : Key → Nat → List Nat) :
    (matRWorld io mc split perm).alone = matWorld io mc split perm := by
  unfold RWorld.alone matWorld matRWorld
  congr 1

@[inherit_doc C179_mat_alone]
theorem C179_hdf5_alone (files : String → H5File V) (split : Key → Key × Key) (perm : Key → Nat → List Nat) :
    (h5RWorld files split perm).alone = h5World files split perm := by
  unfold RWorld.alone h5World h5RWorld
  congr 1
  funext p a i
  simp only [h5Prog, Prog.eval, h5Next, Option.isNone_some, if_false, Bool.false_eq_true]
  cases hY : a.shape[1]? with
  | none => rfl
  | some Y =>
    dsimp only
    split
    · rfl
    · rename_i hi
      have : a.shape.getD 1 0 = Y := by rw [List.getD_eq_getElem?_getD, hY]; rfl
      simp only [Prog.eval, this, if_neg hi]
      cases h5Slice a i <;> rfl

@[inherit_doc C179_mat_alone]
theorem C179_numpy_alone (io : NpIO V) (includeImages : Bool) (split : Key → Key × Key) (perm : Key → Nat → List Nat) (p : String) :
    match (npWorld io includeImages split perm).load p, (npRWorld io includeImages split perm).alone.load p with
    | .ok a, .ok d => ∀ i, (npRWorld io includeImages split perm).alone.slice p d i = (npWorld io includeImages split perm).slice p a i
    | .error e, .error e' => e = e'
    | _, _ => False := by
  show match io.npy p, npLoad io p with
    | .ok a, .ok d => ∀ i, (npProg io includeImages).eval (some p) (some d) i = npNext io includeImages p a i
    | .error e, .error e' => e = e'
    | _, _ => False
  unfold npLoad
  cases io.npy p with
  | error e => rfl
  | ok a =>
    intro i
    simp only [npProg, Prog.eval, npNext, Option.isNone_some, if_false, Bool.false_eq_true, framePaths]
    split
    · rfl
    · split
      · simp only [Prog.eval]
        cases parseFlowName (basename p.toList) with
        | none => rfl
        | some t =>
          simp only [Prog.eval]
          split <;> simp_all [Prog.eval]
      · rfl

/-! ## Recovery -/

private def Plain : TPc V D Key → Prop
  | .readKey _ | .storeKey _ _ | .gather _ _ _ => False
  | _ => True

private theorem plain_step {w : RWorld V D Key} {c : Cfg} (hc : c.randomize = false) {pc : TPc V D Key} {s : Raw D Key} (h : Plain pc) :
    Plain (rstep w c (pc, s)).1 ∧ (rstep w c (pc, s)).2.fileList = s.fileList ∧ (rstep w c (pc, s)).2.key = s.key := by
  cases pc with
  | readKey b => exact h.elim
  | storeKey b k => exact h.elim
  | gather b t n => exact h.elim
  | resetFile b => cases b <;> simp [rstep, hc, afterReset, Plain]
  | test => simp only [rstep]; split <;> exact ⟨trivial, by trivial, by trivial⟩
  | wrap => simp only [rstep]; split <;> exact ⟨trivial, by trivial, by trivial⟩
  | readPath l => simp only [rstep]; split <;> exact ⟨trivial, by trivial, by trivial⟩
  | compare p => simp only [rstep]; split <;> exact ⟨trivial, by trivial, by trivial⟩
  | load p => simp only [rstep]; split <;> exact ⟨trivial, by trivial, by trivial⟩
  | slice p =>
    cases p with
    | ret r => cases r <;> exact ⟨trivial, rfl, rfl⟩
    | _ => exact ⟨trivial, rfl, rfl⟩
  | _ => exact ⟨trivial, rfl, rfl⟩

private theorem plain_run {w : RWorld V D Key} {c : Cfg} (hc : c.randomize = false) (l : List Act) (s : RSt V D Key) (h : ∀ i, Plain (s.pc i)) :
    (rrun w c l s).shared.fileList = s.shared.fileList ∧ (rrun w c l s).shared.key = s.shared.key := by
  induction l generalizing s with
  | nil => exact ⟨rfl, rfl⟩
  | cons a l ih =>
    have set : ∀ (i : Nat) (x : TPc V D Key), Plain x → ∀ j, Plain (setPc s.pc i x j) := by
      intro i x hx j
      unfold setPc
      split
      · exact hx
      · exact h j
    have key : (∀ i, Plain ((ract w c s a).pc i)) ∧ (ract w c s a).shared.fileList = s.shared.fileList ∧ (ract w c s a).shared.key = s.shared.key := by
      cases a with
      | call i =>
        simp only [ract]
        split
        · exact ⟨set i _ trivial, rfl, rfl⟩
        · exact ⟨h, rfl, rfl⟩
      | reset i =>
        simp only [ract]
        split
        · exact ⟨set i _ trivial, rfl, rfl⟩
        · exact ⟨h, rfl, rfl⟩
      | step i =>
        obtain ⟨h1, h2, h3⟩ := plain_step (w := w) (s := s.shared) hc (h i)
        exact ⟨set i _ h1, h2, h3⟩
      | take i =>
        simp only [ract]
        split
        · exact ⟨set i _ trivial, rfl, rfl⟩
        · exact ⟨h, rfl, rfl⟩
    obtain ⟨k1, k2, k3⟩ := key
    obtain ⟨i1, i2⟩ := ih _ k1
    exact ⟨i1.trans k2, i2.trans k3⟩

/-- **C179** (recovery), `randomize=False`. Whatever the threads have done, as soon as no call is being executed, one `reset` makes the scheduler as it was after the
constructor. With `randomize=True` this is false (`C179_refuted_shuffle`). -/
theorem C179_recovers (w : RWorld V D Key) (c : Cfg) (hc : c.randomize = false) (fl : List String) (key : Key) (schedule : List Act)
    (hidle : ∀ i, (rrun w c schedule (start w c fl key)).pc i = .idle) (i : Nat) :
    ∃ k, rrun w c (schedule ++ resetAlone i k) (start w c fl key) =
      { start w c fl key with out := (rrun w c schedule (start w c fl key)).out } := by
  obtain ⟨h1, h2⟩ := plain_run (w := w) hc schedule (start w c fl key) (fun _ => trivial)
  have hpc : (rrun w c schedule (start w c fl key)).pc = fun _ => .idle := funext hidle
  obtain ⟨k, hk⟩ := reset_alone w c (rrun w c schedule (start w c fl key)).shared i (fun _ => .idle) rfl (rrun w c schedule (start w c fl key)).out
  refine ⟨k, ?_⟩
  rw [rrun_append]
  generalize hS : rrun w c schedule (start w c fl key) = S at *
  have : S = { shared := S.shared, pc := fun _ => .idle, out := S.out } := by rw [← hpc]
  rw [this, hk]
  simp only [start, rinit, Base.reset, Base.init, shuffle, hc, Raw.of, Bool.false_eq_true, if_false, h1, h2]

/-! ## What goes wrong -/

/-- Two NumPy files with one flow field each. -/
private def demoIO : NpIO Nat where
  npy p := .ok ⟨[], [if p = "a" then 1 else 2]⟩
  rgb p := .ok ⟨[], [p.length]⟩

private def demo : RWorld Nat (Sample Nat) Nat := npRWorld demoIO false (fun k => (k + 1, k)) (fun _ n => (List.range n).reverse)

private def sampleA : Sample Nat := ⟨⟨[], [1]⟩, none, none, some ["a"]⟩
private def sampleB : Sample Nat := ⟨⟨[], [2]⟩, none, none, some ["b"]⟩

private def go (i n : Nat) : List Act := List.replicate n (.step i)

/-- Two calls, one in each thread, that do not overlap: `a` and `b`. -/
example : (rrun demo ⟨false, false⟩ (callAlone 0 16 ++ callAlone 1 27) (start demo ⟨false, false⟩ ["a", "b"] 0)).out = [(0, .ret sampleA), (1, .ret sampleB)] := rfl

/-- The hypotheses of `C179_serial`. -/
example : ∃ t, Sequence demo.alone ⟨false, false⟩ (Base.init demo.alone ⟨false, false⟩ ["a", "b"] 0) [.call 0, .call 1, .reset 0, .call 2]
    [(0, .ret sampleA), (1, .ret sampleB), (2, .ret sampleA)] t :=
  ⟨_, .call (fuel := 5) rfl (.call (fuel := 5) rfl (.reset (.call (fuel := 5) rfl (.nil _))))⟩

/-- **C179 is false: the same flow field twice.** The second thread reads `_slice_idx` before the first has increased it. Each calls once; both get the flow field of `a`. -/
theorem C179_refuted_twice : ∃ (fl : List String) (schedule : List Act) (x : Sample Nat), fl.Nodup ∧
    (rrun demo ⟨false, false⟩ schedule (start demo ⟨false, false⟩ fl 0)).out = [(0, .ret x), (1, .ret x)] :=
  ⟨["a", "b"], [.call 0] ++ go 0 14 ++ [.call 1] ++ go 1 12 ++ go 0 3 ++ [.take 0, .take 1], sampleA, by decide, by decide⟩

/-- MAT files with one vector each. -/
private def demoM : RWorld Rat (Sample Rat) Nat := matRWorld (demoMat ⟨[1, 1, 2], [7, 8]⟩) ⟨false, 1, 1⟩ (fun k : Nat => (k + 1, k)) (fun _ n => List.range n)

/-- The hypothesis of `C179_mat_partial`: both threads get the sample of `m`. -/
example : (rrun demoM ⟨false, false⟩ ([.call 0] ++ go 0 12 ++ [.call 1] ++ go 1 10 ++ go 0 3 ++ [.take 0, .take 1]) (start demoM ⟨false, false⟩ ["m", "n"] 0)).out =
    [(0, .ret ⟨⟨[1, 1, 2], [7, 8]⟩, none, none, some ["m"]⟩), (1, .ret ⟨⟨[1, 1, 2], [7, 8]⟩, none, none, some ["m"]⟩)] := by
  decide +kernel

/-- **C179 is false: a file is left out.** Both threads find the end of `a` and both go on by one file. `b` can be read, and nobody gets it. -/
theorem C179_refuted_lost : ∃ schedule : List Act,
    (rrun demo ⟨false, false⟩ schedule (start demo ⟨false, false⟩ ["a", "b"] 0)).out = [(0, .ret sampleA), (0, .stop), (1, .stop)] :=
  ⟨callAlone 0 16 ++ [.call 0, .call 1] ++ go 0 9 ++ go 1 9 ++ go 0 2 ++ go 1 2 ++ go 0 1 ++ go 1 1 ++ [.take 0, .take 1], by decide⟩

/-- **C179 is false: calls fail** although both files can be read: `RuntimeError`, when another thread has dropped the cached data, and `IndexError` instead of
`StopIteration` at the end of the list. -/
theorem C179_refuted_raises :
    (∃ schedule : List Act, (rrun demo ⟨false, false⟩ schedule (start demo ⟨false, false⟩ ["a", "b"] 0)).out =
      [(0, .ret sampleA), (0, .raise .runtimeError), (1, .ret sampleB)]) ∧
    ∃ schedule : List Act, (rrun demo ⟨false, false⟩ schedule (start demo ⟨false, false⟩ ["a"] 0)).out =
      [(0, .ret sampleA), (0, .raise .indexError), (1, .stop)] :=
  ⟨⟨callAlone 0 16 ++ [.call 0] ++ go 0 5 ++ [.call 1] ++ go 1 18 ++ go 0 1 ++ go 0 1 ++ [.take 0] ++ go 1 9 ++ [.take 1], by decide⟩,
    ⟨callAlone 0 16 ++ [.call 0] ++ go 0 3 ++ [.call 1] ++ go 1 12 ++ go 0 1 ++ [.take 0, .take 1], by decide⟩⟩

/-- Two HDF5 files with one flow field each. -/
private def demoH5 : RWorld Nat (Arr Nat) Nat :=
  h5RWorld (fun p => .ok [("flow", some ⟨[1, 1, 1, 1], [if p = "a" then 1 else 2]⟩)]) (fun k => (k + 1, k)) (fun _ n => List.range n)

/-- **C179 is false: the wrong name.** The HDF5 scheduler reads the name after the flow field; here the flow field of `a` comes with the name of `b`. -/
theorem C179_refuted_name : ∃ schedule : List Act, (rrun demoH5 ⟨false, false⟩ schedule (start demoH5 ⟨false, false⟩ ["a", "b"] 0)).out =
    [(1, .ret ⟨⟨[1, 1, 1], [1]⟩, none, none, some ["a"]⟩), (0, .ret ⟨⟨[1, 1, 1], [1]⟩, none, none, some ["b"]⟩)] :=
  ⟨[.call 0] ++ go 0 16 ++ callAlone 1 15 ++ [.call 1] ++ go 1 21 ++ go 0 4 ++ [.take 0], by decide⟩

/-- NumPy files with images; the pictures have the first letter of their path. -/
private def demoImg : RWorld Nat (Sample Nat) Nat :=
  npRWorld { npy := fun p => .ok ⟨[], [(p.toList.headD ' ').toNat]⟩, rgb := fun p => .ok ⟨[], [(p.toList.headD ' ').toNat]⟩ } true (fun k => (k + 1, k)) (fun _ n => List.range n)

/-- **C179 is false: the wrong images.** The NumPy scheduler works out the paths of the images from `_cached_file`, after it has taken the flow field: the flow field of
`x/flow_1.npy` (120 for `x`) with the images of `y` (121). -/
theorem C179_refuted_images : ∃ schedule : List Act, (0, .ret ⟨⟨[], [120]⟩, some ⟨[], [121]⟩, some ⟨[], [121]⟩, some ["x/flow_1.npy"]⟩) ∈
    (rrun demoImg ⟨false, false⟩ schedule (start demoImg ⟨false, false⟩ ["x/flow_1.npy", "y/flow_1.npy"] 0)).out :=
  ⟨[.call 0] ++ go 0 13 ++ callAlone 1 13 ++ [.call 1] ++ go 1 20 ++ go 0 5 ++ [.take 0], by decide +kernel⟩

private theorem reverse_permutes : Permutes (fun (_ : Nat) n => (List.range n).reverse) := fun _ _ => List.reverse_perm _

/-- **C179 is false: shuffling loses files for good.** `[self.file_list[i] for i in indices]` reads `self.file_list` again for each index. With `randomize=True`, two calls
of `reset` at the same time leave a list with `a` twice and without `b`; whatever is done afterwards, `b` never comes. -/
theorem C179_refuted_shuffle : ∃ schedule : List Act,
    (∀ i, (rrun demo ⟨false, true⟩ schedule (start demo ⟨false, true⟩ ["a", "b"] 0)).pc i = .idle) ∧
    ∀ later i x, (i, .ret x) ∈ (rrun demo ⟨false, true⟩ (schedule ++ later) (start demo ⟨false, true⟩ ["a", "b"] 0)).out → x.files = some ["a"] := by
  refine ⟨[.reset 0] ++ go 0 7 ++ resetAlone 1 9 ++ go 0 2, ?_, ?_⟩
  · intro i
    rcases i with _ | _ | i <;> rfl
  · intro later i x h
    rw [rrun_append] at h
    have h0 : AllOk ["a", "a"] demo.load ⟨false, true⟩ (fun r => r = .stop ∨ r = .raise .indexError ∨ r = .raise .runtimeError ∨
        ∃ x, r = .ret x ∧ ∃ p ∈ ["a", "a"], Yields (npWorld demoIO false (fun k : Nat => (k + 1, k)) (fun _ n => (List.range n).reverse)) p [x])
        (rrun demo ⟨false, true⟩ ([.reset 0] ++ go 0 7 ++ resetAlone 1 9 ++ go 0 2) (start demo ⟨false, true⟩ ["a", "b"] 0)) := by
      have e : rrun demo ⟨false, true⟩ ([.reset 0] ++ go 0 7 ++ resetAlone 1 9 ++ go 0 2) (start demo ⟨false, true⟩ ["a", "b"] 0) =
          { shared := { fileList := ["a", "a"], index := 0, cachedFile := none, cachedData := none, sliceIdx := 0, key := 3 }, pc := fun _ => .idle, out := [] } := by
        have : (rrun demo ⟨false, true⟩ ([.reset 0] ++ go 0 7 ++ resetAlone 1 9 ++ go 0 2) (start demo ⟨false, true⟩ ["a", "b"] 0)).pc = fun _ => .idle := by
          funext i
          rcases i with _ | _ | i <;> rfl
        rw [← this]
        rfl
      rw [e]
      refine ⟨⟨by simp, rfl, by simp, by simp⟩, fun _ => trivial, ?_, ?_, by simp⟩ <;> simp
    have h1 := (rrun_ok (w := demo) (fun _ => reverse_permutes) (npGood demoIO _ _ _) (.inl rfl) (.inr (.inl rfl)) later h0).out (i, .ret x) h
    rcases h1 with h1 | h1 | h1 | ⟨y, h1, p, hp, hy⟩
    · cases h1
    · cases h1
    · cases h1
    · simp only [Next.ret.injEq] at h1
      subst h1
      have hp' : p = "a" := by simpa using hp
      subst hp'
      have h2 := hy.1 0 (by simp)
      simp only [npWorld, npNext, List.getElem_cons_zero] at h2
      simp at h2
      rw [← h2]

/-- The hypotheses of `C179_recovers`: the two threads of `C179_refuted_lost` are idle at the end. -/
example : ∀ i, (rrun demo ⟨false, false⟩ (callAlone 0 16 ++ [.call 0, .call 1] ++ go 0 9 ++ go 1 9 ++ go 0 2 ++ go 1 2 ++ go 0 1 ++ go 1 1 ++ [.take 0, .take 1])
    (start demo ⟨false, false⟩ ["a", "b"] 0)).pc i = .idle := by
  intro i
  rcases i with _ | _ | i <;> rfl

end Verif.Racing
