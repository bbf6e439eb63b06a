import Verif.Spec.ForLoop
import Verif.Props.Episodes
import Verif.Props.SynthMat
/-!
# C126: `for` statements over samplers
-/

namespace Verif.ForLoop
open Verif

variable {S B : Type}

/-! ## Any sampler -/

/-- `onError` in both directions. -/
theorem onError_eq (e : Exc) : (onError e = .exhausted ↔ e = .stopIteration) ∧ ∀ e', onError e = .raised e' ↔ e = e' ∧ e ≠ .stopIteration := by
  cases e <;> simp [onError] <;> intro e' h <;> subst h <;> simp

/-- `onError` forgets nothing. -/
theorem onError_inj {e e' : Exc} (h : onError e = onError e') : e = e' := by
  by_cases h1 : e = .stopIteration
  · subst h1
    exact ((onError_eq e').1.mp h.symm).symm
  · have h2 : onError e = .raised e := ((onError_eq e).2 e).mpr ⟨rfl, h1⟩
    rw [h2] at h
    exact (((onError_eq e').2 e).mp h.symm).1.symm

/-- A `for` statement that goes on without `break`. -/
theorem forLoop_calls (next : S → Option (Except Exc B × S)) :
    ∀ (xs : List B) (i : Nat) (s : S) (e : Exc) (s' : S),
      (∃ fuel, forLoop next (fun _ _ => false) fuel i s = some (xs, onError e, s')) ↔
        calls next (xs.length + 1) s = some (xs.map .ok ++ [.error e], s')
  | [], i, s, e, s' => by
    constructor
    · rintro ⟨fuel, h⟩
      cases fuel with
      | zero => simp [forLoop] at h
      | succ fuel =>
        rw [forLoop] at h
        rw [List.length_nil, calls]
        cases hn : next s with
        | none => simp [hn] at h
        | some q =>
          obtain ⟨r, s1⟩ := q
          cases r with
          | error e1 =>
            simp only [hn, Option.some.injEq, Prod.mk.injEq, true_and] at h
            simp [calls, onError_inj h.1, h.2]
          | ok b => simp [hn] at h
    · intro h
      refine ⟨1, ?_⟩
      rw [List.length_nil, calls] at h
      rw [forLoop]
      cases hn : next s with
      | none => simp [hn] at h
      | some q =>
        obtain ⟨r, s1⟩ := q
        simp only [hn, calls, Option.map_some, Option.some.injEq, Prod.mk.injEq, List.map_nil, List.nil_append, List.cons.injEq, and_true] at h
        obtain ⟨rfl, rfl⟩ := h
        rfl
  | x :: xs, i, s, e, s' => by
    constructor
    · rintro ⟨fuel, h⟩
      cases fuel with
      | zero => simp [forLoop] at h
      | succ fuel =>
        rw [forLoop] at h
        rw [List.length_cons, calls]
        cases hn : next s with
        | none => simp [hn] at h
        | some q =>
          obtain ⟨r, s1⟩ := q
          cases r with
          | error e1 => simp [hn] at h
          | ok b =>
            simp only [hn, Bool.false_eq_true, if_false, Option.map_eq_some_iff, Prod.mk.injEq, List.cons.injEq] at h
            obtain ⟨⟨ys, en, s2⟩, h1, ⟨rfl, rfl⟩, h2⟩ := h
            rw [Prod.mk.injEq] at h2
            obtain ⟨rfl, rfl⟩ := h2
            dsimp only
            rw [(forLoop_calls next ys (i + 1) s1 e _).mp ⟨fuel, h1⟩]
            rfl
    · intro h
      rw [List.length_cons, calls] at h
      cases hn : next s with
      | none => simp [hn] at h
      | some q =>
        obtain ⟨r, s1⟩ := q
        simp only [hn, Option.map_eq_some_iff, Prod.mk.injEq, List.map_cons, List.cons_append, List.cons.injEq] at h
        obtain ⟨⟨ys, s2⟩, h1, ⟨rfl, h2⟩, h3⟩ := h
        dsimp only at h2 h3
        subst h2 h3
        obtain ⟨fuel, hf⟩ := (forLoop_calls next xs (i + 1) s1 e _).mpr h1
        refine ⟨fuel + 1, ?_⟩
        rw [forLoop, hn]
        simp [hf]

/-- **C126**: without `break`, the body of a `for` statement over any sampler runs once for each of the batches that as many calls of `next` return,
in their order, until a call raises; it ends normally if and only if that exception is `StopIteration`, and leaves the sampler as those calls do. -/
theorem C126_for_statement (next : S → Option (Except Exc B × S)) (s : S) (xs : List B) (e : Exc) (s' : S) :
    ((∃ fuel, forLoop next (fun _ _ => false) fuel 0 s = some (xs, if e = .stopIteration then .exhausted else .raised e, s')) ↔
      calls next (xs.length + 1) s = some (xs.map .ok ++ [.error e], s')) := by
  have h : (if e = .stopIteration then Ending.exhausted else .raised e) = onError e := by
    by_cases he : e = .stopIteration
    · subst he; rfl
    · rw [if_neg he, ((onError_eq e).2 e).mpr ⟨rfl, he⟩]
  rw [h]
  exact forLoop_calls next xs 0 s e s'

/-- **C126**: a `for` statement left by `break` takes no batch beyond the one at which its body breaks, so that the next statement goes on with the
batch after it: together they run for the batches of one sequence of calls of `next`. -/
theorem C126_break (next : S → Option (Except Exc B × S)) (brk : Nat → B → Bool) :
    ∀ (fuel i : Nat) (s : S) (xs : List B) (s' : S), forLoop next brk fuel i s = some (xs, .broken, s') →
      calls next xs.length s = some (xs.map .ok, s') ∧
      ∃ ys y, xs = ys ++ [y] ∧ brk (i + ys.length) y = true ∧ ∀ j x, ys[j]? = some x → brk (i + j) x = false
  | 0, _, _, _, _, h => by simp [forLoop] at h
  | fuel + 1, i, s, xs, s', h => by
    rw [forLoop] at h
    cases hn : next s with
    | none => simp [hn] at h
    | some q =>
      obtain ⟨r, s1⟩ := q
      cases r with
      | error e =>
        simp only [hn, Option.some.injEq, Prod.mk.injEq] at h
        have h2 := h.2.1
        cases e <;> simp [onError] at h2
      | ok b =>
        simp only [hn] at h
        by_cases hb : brk i b = true
        · simp only [hb, if_true, Option.some.injEq, Prod.mk.injEq, true_and] at h
          obtain ⟨rfl, rfl⟩ := h
          exact ⟨by simp [calls, hn], [], b, rfl, by simpa using hb, by simp⟩
        · rw [if_neg hb, Option.map_eq_some_iff] at h
          obtain ⟨⟨ys, en, s2⟩, h1, h2⟩ := h
          rw [Prod.mk.injEq, Prod.mk.injEq] at h2
          obtain ⟨rfl, rfl, rfl⟩ := h2
          obtain ⟨g1, zs, y, g2, g3, g4⟩ := C126_break next brk fuel (i + 1) s1 ys _ h1
          refine ⟨by simp [calls, hn, g1], b :: zs, y, by simp [g2], by rw [← g3]; congr 1; simp; omega, ?_⟩
          intro j x hj
          cases j with
          | zero => simp at hj; subst hj; simpa using hb
          | succ j =>
            have := g4 j x (by simpa using hj)
            rw [← this]; congr 1; omega

/-- Calls in two goes. -/
theorem calls_add (next : S → Option (Except Exc B × S)) : ∀ (m n : Nat) (s : S),
    calls next (m + n) s = (calls next m s).bind (fun q => (calls next n q.2).map (fun p => (q.1 ++ p.1, p.2)))
  | 0, n, s => by simp [calls]
  | m + 1, n, s => by
    rw [Nat.add_right_comm, calls, calls]
    cases next s with
    | none => rfl
    | some q =>
      obtain ⟨r, s1⟩ := q
      dsimp only
      rw [calls_add next m n s1]
      cases calls next m s1 with
      | none => rfl
      | some p =>
        simp only [Option.bind_some, Option.map_some, Option.map_map]
        rfl

/-- **C126**: two statements, the first left by `break`, see what one statement sees. -/
theorem C126_goes_on (next : S → Option (Except Exc B × S)) (brk : Nat → B → Bool) (fuel fuel' : Nat) (s s' s'' : S) (xs ys : List B) (e : Exc)
    (h : forLoop next brk fuel 0 s = some (xs, .broken, s'))
    (h' : forLoop next (fun _ _ => false) fuel' 0 s' = some (ys, onError e, s'')) :
    ∃ f, forLoop next (fun _ _ => false) f 0 s = some (xs ++ ys, onError e, s'') := by
  refine (forLoop_calls next _ 0 s e s'').mpr ?_
  rw [List.length_append, Nat.add_assoc, calls_add, (C126_break next brk fuel 0 s xs s' h).1]
  simp [(forLoop_calls next ys 0 s' e s'').mp ⟨fuel', h'⟩]

/-- Calls of `next` on the synthetic sampler. -/
theorem calls_synthetic {S F O I : Type} (sch : Sampler.ISched S (Sampler.FlowBatch F)) (g : Sampler.Gen F O I) (cfg : Sampler.Cfg) :
    ∀ (k : Nat) (s : Sampler.St S F O), Sampler.run sch g cfg (List.replicate k .next) s =
      (calls (Sampler.next sch g cfg) k s).map (fun q => (q.1.map Sampler.batchOut, q.2))
  | 0, s => rfl
  | k + 1, s => by
    rw [List.replicate_succ, Sampler.run, calls, Sampler.step]
    cases Sampler.next sch g cfg s with
    | none => rfl
    | some q =>
      obtain ⟨r, s1⟩ := q
      simp only [Option.map_some]
      rw [calls_synthetic sch g cfg k s1]
      cases calls (Sampler.next sch g cfg) k s1 <;> rfl

/-- Calls of `next` on the real-image sampler. -/
theorem calls_real {S V : Type} (sch : Sampler.ISched S (Base.Batch V)) (n : Nat) :
    ∀ (k : Nat) (s : S), Sampler.realRun sch n k s = calls (Sampler.realNext sch n) k s
  | 0, s => rfl
  | k + 1, s => by
    rw [Sampler.realRun, calls]
    cases Sampler.realNext sch n s with
    | none => rfl
    | some q =>
      obtain ⟨r, s1⟩ := q
      dsimp only
      rw [calls_real sch n k s1]
      cases calls (Sampler.realNext sch n) k s1 <;> rfl

/-- The outcomes of a synthetic sampler in terms of `calls`. -/
theorem nexts_synthetic {S F O I : Type} (sch : Sampler.ISched S (Sampler.FlowBatch F)) (g : Sampler.Gen F O I) (cfg : Sampler.Cfg)
    (s : Sampler.St S F O) (k : Nat) :
    nexts (fun ops => (Sampler.run sch g cfg ops s).map Prod.fst) k = (calls (Sampler.next sch g cfg) k s).map Prod.fst := by
  unfold nexts
  dsimp only
  rw [calls_synthetic]
  cases calls (Sampler.next sch g cfg) k s with
  | none => rfl
  | some q =>
    obtain ⟨rs, s'⟩ := q
    simp only [Option.map_some, Option.bind_some]
    induction rs with
    | nil => rfl
    | cons r rs ih =>
      rw [List.map_cons, List.mapM_cons, ih]
      cases r <;> rfl

/-- The outcomes of the first calls, one by one. -/
theorem nexts_eq {run : List Sampler.Op → Option (List (Sampler.Out B))} {k : Nat} {outs : List (Sampler.Out B)} {rs : List (Except Exc B)}
    (h : run (List.replicate k .next) = some outs) (ho : outs = rs.map Sampler.batchOut) : nexts run k = some rs := by
  unfold nexts
  rw [h, ho, Option.bind_some]
  clear h ho
  induction rs with
  | nil => rfl
  | cons r rs ih =>
    rw [List.map_cons, List.mapM_cons, ih]
    cases r <;> rfl

/-- Conversely. -/
theorem nexts_inv {run : List Sampler.Op → Option (List (Sampler.Out B))} {k : Nat} {rs : List (Except Exc B)} (h : nexts run k = some rs) :
    run (List.replicate k .next) = some (rs.map Sampler.batchOut) := by
  unfold nexts at h
  rw [Option.bind_eq_some_iff] at h
  obtain ⟨outs, h1, h2⟩ := h
  rw [h1, Option.some.injEq]
  clear h1
  induction outs generalizing rs with
  | nil => simp at h2; subst h2; rfl
  | cons o outs ih =>
    rw [List.mapM_cons] at h2
    cases o with
    | done => simp at h2
    | batch b =>
      simp only [Option.pure_def, Option.bind_eq_bind, Option.bind_some, Option.bind_eq_some_iff, Option.some.injEq] at h2
      obtain ⟨ys, h2, rfl⟩ := h2
      rw [ih h2]
      rfl
    | raised e =>
      simp only [Option.pure_def, Option.bind_eq_bind, Option.bind_some, Option.bind_eq_some_iff, Option.some.injEq] at h2
      obtain ⟨ys, h2, rfl⟩ := h2
      rw [ih h2]
      rfl

/-- Outcomes of which the first `N` are batches and the last an exception. -/
theorem outs_split {outs : List (Sampler.Out B)} {N : Nat} {e : Exc} {P : Nat → B → Prop} (hlen : outs.length = N + 1)
    (hb : ∀ n, n < N → ∃ x, outs[n]? = some (.batch x) ∧ P n x) (he : outs[N]? = some (.raised e)) :
    ∃ xs : List B, xs.length = N ∧ outs = (xs.map Except.ok ++ [Except.error e]).map Sampler.batchOut ∧ ∀ n x, xs[n]? = some x → P n x := by
  induction N generalizing outs P with
  | zero =>
    match outs, hlen with
    | [o], _ =>
      simp at he
      subst he
      exact ⟨[], rfl, rfl, by simp⟩
  | succ N ih =>
    match outs, hlen with
    | o :: outs, hlen =>
      obtain ⟨x, x1, x2⟩ := hb 0 (by omega)
      simp at x1
      subst x1
      obtain ⟨xs, g1, g2, g3⟩ := ih (outs := outs) (P := fun n => P (n + 1)) (by simpa using hlen)
        (fun n hn => by simpa using hb (n + 1) (by omega)) (by simpa using he)
      refine ⟨x :: xs, by simp [g1], by rw [g2]; rfl, ?_⟩
      intro n y hn
      cases n with
      | zero => simp at hn; subst hn; exact x2
      | succ n => exact g3 n y (by simpa using hn)

/-- A `for` statement over a sampler whose calls return batches, then raise. -/
theorem loops_of_outs {run : List Sampler.Op → Option (List (Sampler.Out B))} {N : Nat} {e : Exc} {P : Nat → B → Prop}
    {outs : List (Sampler.Out B)} (h : run (List.replicate (N + 1) .next) = some outs) (hlen : outs.length = N + 1)
    (hb : ∀ n, n < N → ∃ x, outs[n]? = some (.batch x) ∧ P n x) (he : outs[N]? = some (.raised e)) :
    ∃ xs, Loops (nexts run) xs e ∧ xs.length = N ∧ ∀ n x, xs[n]? = some x → P n x := by
  obtain ⟨xs, g1, g2, g3⟩ := outs_split hlen hb he
  refine ⟨xs, ?_, g1, g3⟩
  unfold Loops
  rw [g1]
  exact nexts_eq h g2

/-- No `for` statement over a sampler whose calls always return batches ends. -/
theorem endless {run : List Sampler.Op → Option (List (Sampler.Out B))}
    (h : ∀ N, ∃ outs, run (List.replicate N .next) = some outs ∧ ∀ n, n < N → ∃ x, outs[n]? = some (.batch x)) (xs : List B) (e : Exc) :
    ¬ Loops (nexts run) xs e := by
  intro hl
  obtain ⟨outs, h1, h2⟩ := h (xs.length + 1)
  obtain ⟨x, hx⟩ := h2 xs.length (by omega)
  have h3 := nexts_inv hl
  rw [h1, Option.some.injEq] at h3
  rw [h3] at hx
  simp [Sampler.batchOut] at hx

end Verif.ForLoop

namespace Verif.Whole
open Verif Verif.ForLoop Verif.Whole.Spec

/-! ## Samplers made by `make` -/

/-- **C126** for HDF5 files and `loop: false`: the body of `for batch in sampler` runs once for each batch made of the fields of the files, in
order, and the statement ends normally. -/
theorem C126_h5_ends (E : Env) (arg : Make.Arg) (d : Make.Dict) (hd : Make.Spec.ConfigOf (world E) arg d) (s : Make.Smp)
    (h : Make.make (world E) arg = .ok s) (hp : Plain d .h5 false) (hl : Make.Spec.ValueOr d "loop" (.bool true) (.bool false)) :
    ∃ files rnd a m, FilesOf E .h5 d files ∧ Make.Spec.ValueOr d "randomize" (.bool false) (.bool rnd) ∧ Configured E d a ∧
      Synthetic.make E.fl E.fl32 a = .ok m ∧ Sizes a m.cfg ∧
      ∀ X Z C content, SynthPipeline.Contents E.h5 X Z C files content → 2 ≤ C → files.Nodup →
        (rnd = true → ∀ k n, (E.perm k n).Perm (List.range n)) → a.ndevices ∣ m.cfg.ffpb → ∀ fuel, files.length < fuel →
        ∃ order : List String, order.Perm files ∧ (rnd = false → order = files) ∧ ∃ batches,
          Loops (nexts (fun ops => synthRun E fuel ops s)) batches .stopIteration ∧
          batches.length = ((SynthPipeline.fieldsOf content files).length + m.cfg.ffpb - 1) / m.cfg.ffpb * m.cfg.bpfb ∧
          ∀ n x, batches[n]? = some x → SynthPipeline.MadeOf (Synthetic.gen E.fl E.fl32 E.rand a m) m.cfg X Z content n
            (((SynthPipeline.fieldsOf content order).drop (n / m.cfg.bpfb * m.cfg.ffpb)).take m.cfg.ffpb) x := by
  obtain ⟨files, rnd, a, m, f1, f2, f3, f4, f5, f6⟩ := C110_h5_ends E arg d hd s h hp hl
  refine ⟨files, rnd, a, m, f1, f2, f3, f4, f5, ?_⟩
  intro X Z C content hc hC hnd hrnd hdv fuel hfuel
  obtain ⟨_, order, o1, o2, outs, r1, r2, r3, r4⟩ := f6 X Z C content hc hC hnd hrnd hdv fuel hfuel
  refine ⟨order, o1, o2, loops_of_outs r1 r2 (fun n hn => ?_) r4⟩
  obtain ⟨x, x1, x2, _⟩ := r3 n hn
  exact ⟨x, x1, x2⟩

/-- **C126** for HDF5 files and `loop: true` (the default): `for batch in sampler` never ends by itself. -/
theorem C126_h5_endless (E : Env) (arg : Make.Arg) (d : Make.Dict) (hd : Make.Spec.ConfigOf (world E) arg d) (s : Make.Smp)
    (h : Make.make (world E) arg = .ok s) (hp : Plain d .h5 false) (hl : Make.Spec.ValueOr d "loop" (.bool true) (.bool true)) :
    ∃ files rnd a m, FilesOf E .h5 d files ∧ Make.Spec.ValueOr d "randomize" (.bool false) (.bool rnd) ∧ Configured E d a ∧
      Synthetic.make E.fl E.fl32 a = .ok m ∧ Sizes a m.cfg ∧
      ∀ X Z C content, SynthPipeline.Contents E.h5 X Z C files content → 2 ≤ C → SynthPipeline.fieldsOf content files ≠ [] → files.Nodup →
        (rnd = true → ∀ k n, (E.perm k n).Perm (List.range n)) → a.ndevices ∣ m.cfg.ffpb → ∀ fuel, 2 * files.length ≤ fuel →
        ∀ batches e, ¬ Loops (nexts (fun ops => synthRun E fuel ops s)) batches e := by
  obtain ⟨files, rnd, a, m, f1, f2, f3, f4, f5, f6⟩ := C110_h5_looping E arg d hd s h hp hl
  refine ⟨files, rnd, a, m, f1, f2, f3, f4, f5, ?_⟩
  intro X Z C content hc hC hne hnd hrnd hdv fuel hfuel
  obtain ⟨_, order, _, _, o3⟩ := f6 X Z C content hc hC hne hnd hrnd hdv fuel hfuel
  refine endless (fun N => ?_)
  obtain ⟨outs, r1, _, K, _, r4⟩ := o3 N
  refine ⟨outs, r1, fun n hn => ?_⟩
  obtain ⟨x, x1, _⟩ := r4 n hn
  exact ⟨x, x1⟩

/-- **C126** for MAT and NumPy files and `loop: false`: whenever `C116_mat` or `C116_npy` says that the sampler serves one pass, the statement
ends normally after the batches of that pass. -/
theorem C126_once {E : Env} {s : Make.Smp} {fuel : Nat} {files : List String} {rnd : Bool} {a : Synthetic.Args} {m : Synthetic.Made} {X Z : Nat}
    {content : String → List (Arr ℚ)} (h : ServesOnce E s fuel files rnd a m X Z content) :
    ∃ order : List String, order.Perm files ∧ (rnd = false → order = files) ∧ ∃ batches,
      Loops (nexts (fun ops => synthRun E fuel ops s)) batches .stopIteration ∧
      batches.length = ((SynthAny.fieldsOf content files).length + m.cfg.ffpb - 1) / m.cfg.ffpb * m.cfg.bpfb ∧
      ∀ n x, batches[n]? = some x → SynthAny.MadeOf (Synthetic.gen E.fl E.fl32 E.rand a m) m.cfg X Z n
        (((SynthAny.fieldsOf content order).drop (n / m.cfg.bpfb * m.cfg.ffpb)).take m.cfg.ffpb) x := by
  obtain ⟨order, o1, o2, outs, r1, r2, r3, r4⟩ := h
  refine ⟨order, o1, o2, loops_of_outs r1 r2 (fun n hn => ?_) r4⟩
  obtain ⟨x, x1, x2, _⟩ := r3 n hn
  exact ⟨x, x1, x2⟩

/-- **C126** for MAT and NumPy files and `loop: true`: whenever they say that it serves without end, the statement never ends by itself. -/
theorem C126_endless {E : Env} {s : Make.Smp} {fuel : Nat} {files : List String} {rnd : Bool} {a : Synthetic.Args} {m : Synthetic.Made} {X Z : Nat}
    {content : String → List (Arr ℚ)} (h : ServesForever E s fuel files rnd a m X Z content)
    (batches : List (Sampler.OutBatch (Adapter.Field2 ℚ) Synthetic.Pair)) (e : Exc) :
    ¬ Loops (nexts (fun ops => synthRun E fuel ops s)) batches e := by
  obtain ⟨order, _, _, o3⟩ := h
  refine endless (fun N => ?_) batches e
  obtain ⟨outs, r1, _, K, _, r4⟩ := o3 N
  refine ⟨outs, r1, fun n hn => ?_⟩
  obtain ⟨x, x1, _⟩ := r4 n hn
  exact ⟨x, x1⟩

/-- Groups of `n`: the group number `i` is empty from the quotient, rounded up, on. -/
theorem group_nil {A : Type} (l : List A) {n : Nat} (hn : 0 < n) (i : Nat) : (l.drop (n * i)).take n = [] ↔ (l.length + n - 1) / n ≤ i := by
  rw [List.take_eq_nil_iff, List.drop_eq_nil_iff]
  constructor
  · rintro (h | h)
    · omega
    · apply Nat.le_of_lt_succ
      rw [Nat.div_lt_iff_lt_mul hn, Nat.succ_mul, Nat.mul_comm i n]
      omega
  · intro h
    right
    have h2 := (Nat.div_lt_iff_lt_mul hn).mp (Nat.lt_succ_of_le h)
    rw [Nat.succ_mul, Nat.mul_comm i n] at h2
    omega

/-- **C126** for real images and `loop: false`: the body runs once for each batch of the pairs of the files, in order, and the statement ends
normally. -/
theorem C126_real_ends (E : Env) (arg : Make.Arg) (d : Make.Dict) (hd : Make.Spec.ConfigOf (world E) arg d) (s : Make.Smp)
    (h : Make.make (world E) arg = .ok s) (hp : Plain d .mat true) (hl : Make.Spec.ValueOr d "loop" (.bool true) (.bool false)) :
    ∃ files rnd n hh ww, FilesOf E .mat d files ∧ Make.Spec.ValueOr d "randomize" (.bool false) (.bool rnd) ∧
      Has d "batch_size" (IsInt (n : Nat)) ∧ 0 < n ∧ IsSize d hh ww ∧
      ∀ content, RealPipeline.Contents E.mat hh ww files content → files.Nodup →
        (rnd = true → ∀ k n, (E.perm k n).Perm (List.range n)) → ∀ fuel, files.length < fuel →
        ∃ order : List String, order.Perm files ∧ (rnd = false → order = files) ∧ ∃ batches,
          Loops (fun k => realRun E fuel k s) batches .stopIteration ∧
          batches.length = ((RealPipeline.pairsOf content order).length + n - 1) / n ∧
          ∀ i b, batches[i]? = some b → RealPipeline.ShowsPairs n hh ww (((RealPipeline.pairsOf content order).drop (n * i)).take n) b := by
  obtain ⟨files, rnd, n, hh, ww, f1, f2, f3, f4, f5, f6⟩ := C111_mat_ends E arg d hd s h hp hl
  refine ⟨files, rnd, n, hh, ww, f1, f2, f3, f4, f5, ?_⟩
  intro content hc hnd hrnd fuel hfuel
  obtain ⟨order, o1, o2, o3⟩ := f6 content hc hnd hrnd fuel hfuel
  refine ⟨order, o1, o2, ?_⟩
  obtain ⟨outs, r1, r2, r3⟩ := o3 (((RealPipeline.pairsOf content order).length + n - 1) / n + 1)
  obtain ⟨xs, g1, g2, g3⟩ := outs_split (outs := outs.map Sampler.batchOut) (e := .stopIteration)
    (P := fun i b => RealPipeline.ShowsPairs n hh ww (((RealPipeline.pairsOf content order).drop (n * i)).take n) b)
    (N := ((RealPipeline.pairsOf content order).length + n - 1) / n) (by simpa using r2) (fun i hi => by
      have hr := List.getElem?_eq_getElem (l := outs) (i := i) (by omega)
      have hs := r3 i _ hr
      unfold RealPipeline.Serves at hs
      rw [if_neg (by rw [group_nil _ f4]; omega)] at hs
      obtain ⟨b, b1, b2, _⟩ := hs
      exact ⟨b, by rw [List.getElem?_map, hr, b1]; rfl, b2⟩) (by
      have hr := List.getElem?_eq_getElem (l := outs) (i := ((RealPipeline.pairsOf content order).length + n - 1) / n) (by omega)
      have hs := r3 _ _ hr
      unfold RealPipeline.Serves at hs
      rw [if_pos (by rw [group_nil _ f4])] at hs
      rw [List.getElem?_map, hr, hs]; rfl)
  refine ⟨xs, ?_, g1, g3⟩
  have hinj : Function.Injective (Sampler.batchOut (A := Sampler.RealBatch ℚ)) := by
    intro x y hxy
    cases x <;> cases y <;> simp [Sampler.batchOut] at hxy <;> rw [hxy]
  rw [List.map_inj_right (fun x y => @hinj x y)] at g2
  unfold Loops
  dsimp only
  rw [g1, r1, g2]

/-- **C126** for real images and `loop: true`: the statement never ends by itself. -/
theorem C126_real_endless (E : Env) (arg : Make.Arg) (d : Make.Dict) (hd : Make.Spec.ConfigOf (world E) arg d) (s : Make.Smp)
    (h : Make.make (world E) arg = .ok s) (hp : Plain d .mat true) (hl : Make.Spec.ValueOr d "loop" (.bool true) (.bool true)) :
    ∃ files rnd n hh ww, FilesOf E .mat d files ∧ Make.Spec.ValueOr d "randomize" (.bool false) (.bool rnd) ∧
      Has d "batch_size" (IsInt (n : Nat)) ∧ 0 < n ∧ IsSize d hh ww ∧
      ∀ content, RealPipeline.Contents E.mat hh ww files content → RealPipeline.pairsOf content files ≠ [] → files.Nodup →
        (rnd = true → ∀ k n, (E.perm k n).Perm (List.range n)) → ∀ fuel, 2 * files.length ≤ fuel →
        ∀ batches e, ¬ Loops (fun k => realRun E fuel k s) batches e := by
  obtain ⟨files, rnd, n, hh, ww, f1, f2, f3, f4, f5, f6⟩ := C111_mat_looping E arg d hd s h hp hl
  refine ⟨files, rnd, n, hh, ww, f1, f2, f3, f4, f5, ?_⟩
  intro content hc hne hnd hrnd fuel hfuel batches e hloop
  obtain ⟨order, _, _, o3⟩ := f6 content hc hne hnd hrnd fuel hfuel
  obtain ⟨outs, r1, _, K, _, r4⟩ := o3 (batches.length + 1)
  obtain ⟨b, hb, _⟩ := r4 batches.length (by omega)
  unfold Loops at hloop
  dsimp only at hloop
  rw [r1, Option.some.injEq] at hloop
  rw [hloop] at hb
  simp at hb

/-! ## Episodes -/

/-- Calls of `next` on a player of episodes: batches while the episode lasts, then `EpisodeEnd`. -/
theorem plays_nexts {A : Type} {L : Nat} {Batch : Nat → Nat → Nat → A → Prop} {k : Nat} : ∀ (N t n : Nat) (outs : List (Sampler.Out A)),
    Episodes.Plays L Batch k t n (List.replicate N .next) outs → outs.length = N ∧ ∀ i, i < N →
      if t + i < L then ∃ x, outs[i]? = some (.batch x) ∧ Batch k (t + i) (n + i) x else outs[i]? = some (.raised .episodeEnd)
  | 0, t, n, outs, h => by
    simp [Episodes.Plays] at h
    simp [h]
  | N + 1, t, n, outs, h => by
    rw [List.replicate_succ, Episodes.Plays] at h
    by_cases ht : t < L
    · rw [if_pos ht] at h
      obtain ⟨x, rest, rfl, hx, h⟩ := h
      obtain ⟨g1, g2⟩ := plays_nexts N (t + 1) (n + 1) rest h
      refine ⟨by simp [g1], fun i hi => ?_⟩
      cases i with
      | zero => simp [ht, hx]
      | succ i =>
        have := g2 i (by omega)
        rw [show t + 1 + i = t + (i + 1) by omega, show n + 1 + i = n + (i + 1) by omega] at this
        simpa using this
    · rw [if_neg ht] at h
      obtain ⟨rest, rfl, h⟩ := h
      obtain ⟨g1, g2⟩ := plays_nexts N t n rest h
      refine ⟨by simp [g1], fun i hi => ?_⟩
      rw [if_neg (by omega)]
      cases i with
      | zero => rfl
      | succ i =>
        have := g2 i (by omega)
        rw [if_neg (by omega)] at this
        simpa using this

/-- No episode begins while only `next` is called. -/
theorem begun_nexts : ∀ N, Episodes.begun (List.replicate N .next) = 0
  | 0 => rfl
  | N + 1 => by rw [List.replicate_succ, Episodes.begun, begun_nexts N]

/-- A `for` statement over a player of episodes of `L` steps. -/
theorem plays_loop {A : Type} {L : Nat} {Batch : Nat → Nat → Nat → A → Prop} {run : List Sampler.Op → Option (List (Sampler.Out A))}
    (h : ∀ N, ∃ outs, run (List.replicate N .next) = some outs ∧ Episodes.Plays L Batch 0 0 0 (List.replicate N .next) outs) :
    (∃ batches, Loops (nexts run) batches .episodeEnd ∧ batches.length = L ∧ ∀ i x, batches[i]? = some x → Batch 0 i i x) ∧
    ∀ batches e, Loops (nexts run) batches e → e = .episodeEnd := by
  constructor
  · obtain ⟨outs, h1, h2⟩ := h (L + 1)
    obtain ⟨g1, g2⟩ := plays_nexts (L + 1) 0 0 outs h2
    refine loops_of_outs h1 g1 (fun i hi => ?_) ?_
    · simpa [hi] using g2 i (by omega)
    · simpa using g2 L (by omega)
  · intro batches e hl
    obtain ⟨outs, h1, h2⟩ := h (batches.length + 1)
    obtain ⟨g1, g2⟩ := plays_nexts (batches.length + 1) 0 0 outs h2
    have h3 := nexts_inv hl
    rw [h1, Option.some.injEq] at h3
    have h4 := g2 batches.length (by omega)
    rw [h3] at h4
    split at h4
    · obtain ⟨x, hx, _⟩ := h4
      simp [Sampler.batchOut] at hx
    · simpa [Sampler.batchOut] using h4

/-- **C126** refuted for episodes: under the conditions of `C120_synthetic_partial`, the body of `for batch in sampler` runs once for each step of
the episode; then the statement does not end normally but is left by `EpisodeEnd`. -/
theorem C126_episodes_refuted (E : Env) (arg : Make.Arg) (d : Make.Dict) (hd : Make.Spec.ConfigOf (world E) arg d) (s : Make.Smp)
    (h : Make.make (world E) arg = .ok s) (L : Nat) (hp : WithEpisodes d false L)
    (hrnd : Make.Spec.ValueOr d "randomize" (.bool false) (.bool false)) (hset : LeafDirs.SetIter E.os.iterSet) (hpil : Formats.PilOK E.mat) :
    ∃ files dirs n a m, FilesOf E .mat d files ∧ LeafDirsOf E files dirs ∧ Has d "batch_size" (IsInt (n : Nat)) ∧ 0 < n ∧ Configured E d a ∧
      Synthetic.make E.fl E.fl32 a = .ok m ∧
      (Ordinary E.mat (dirs.flatMap E.matFiles) → ∃ content, MatContents E.mat 256 256 (dirs.flatMap E.matFiles) content ∧
        ((∀ p ∈ dirs.flatMap E.matFiles, content p ≠ []) → Episodic.ChoiceOK (Key := KeyTerm) ⟨KeyTerm.split2, E.choice⟩ → m.cfg.ffpb = n →
          a.ndevices ∣ n → ∃ draws, Draws E dirs L n draws ∧ (Episodes.NoRepeat L (draws 0) → ∀ fuel, L * n ≤ fuel →
            (∃ batches, Loops (nexts (fun ops => synthEpisodes E fuel ops s)) batches .episodeEnd ∧ batches.length = L ∧
              ∀ i x, batches[i]? = some x →
                SynthAny.MadeOf (Synthetic.gen E.fl E.fl32 E.rand a m) m.cfg 256 256 i (SynthAny.fieldsOf content (stepFiles (draws 0) i)) x) ∧
            ∀ batches e, Loops (nexts (fun ops => synthEpisodes E fuel ops s)) batches e → e = .episodeEnd))) := by
  obtain ⟨files, dirs, n, a, m, f1, f2, f3, f4, f5, f6, _, _, _, f7⟩ := C120_synthetic_partial E arg d hd s h L hp hrnd hset hpil
  refine ⟨files, dirs, n, a, m, f1, f2, f3, f4, f5, f6, ?_⟩
  intro ho
  obtain ⟨content, hc, f8⟩ := f7 ho
  refine ⟨content, hc, ?_⟩
  intro hne hch hff hdv
  obtain ⟨draws, hD, f9⟩ := f8 hne hch hff hdv
  refine ⟨draws, hD, ?_⟩
  intro hno fuel hfuel
  have hplay := plays_loop (run := fun ops => synthEpisodes E fuel ops s) (fun N => f9 fuel hfuel (List.replicate N .next) (fun k hk => by
    rw [begun_nexts] at hk
    rw [Nat.le_zero.mp hk]
    exact hno))
  obtain ⟨⟨bs, b1, b2, b3⟩, b4⟩ := hplay
  exact ⟨⟨bs, b1, b2, fun i x hx => (b3 i x hx).1⟩, b4⟩

/-- **C126** refuted for episodes of real images in the same way. -/
theorem C126_real_episodes_refuted (E : Env) (arg : Make.Arg) (d : Make.Dict) (hd : Make.Spec.ConfigOf (world E) arg d) (s : Make.Smp)
    (h : Make.make (world E) arg = .ok s) (L : Nat) (hp : WithEpisodes d true L)
    (hrnd : Make.Spec.ValueOr d "randomize" (.bool false) (.bool false)) (hset : LeafDirs.SetIter E.os.iterSet) :
    ∃ files dirs n hh ww, FilesOf E .mat d files ∧ LeafDirsOf E files dirs ∧ Has d "batch_size" (IsInt (n : Nat)) ∧ 0 < n ∧ IsSize d hh ww ∧
      ∀ content, RealPipeline.Contents E.mat hh ww (dirs.flatMap E.matFiles) content → (∀ p ∈ dirs.flatMap E.matFiles, content p ≠ none) →
        Episodic.ChoiceOK (Key := KeyTerm) ⟨KeyTerm.split2, E.choice⟩ → ∃ draws, Draws E dirs L n draws ∧ (Episodes.NoRepeat L (draws 0) →
          ∀ fuel, L * n ≤ fuel →
          (∃ batches, Loops (nexts (fun ops => realEpisodes E fuel ops s)) batches .episodeEnd ∧ batches.length = L ∧
            ∀ i b, batches[i]? = some b → RealPipeline.ShowsPairs n hh ww (RealPipeline.pairsOf content (stepFiles (draws 0) i)) b) ∧
          ∀ batches e, Loops (nexts (fun ops => realEpisodes E fuel ops s)) batches e → e = .episodeEnd) := by
  obtain ⟨files, dirs, n, hh, ww, f1, f2, f3, f4, f5, _, f7⟩ := C120_real_partial E arg d hd s h L hp hrnd hset
  refine ⟨files, dirs, n, hh, ww, f1, f2, f3, f4, f5, ?_⟩
  intro content hc hne hch
  obtain ⟨draws, hD, f9⟩ := f7 content hc hne hch
  refine ⟨draws, hD, ?_⟩
  intro hno fuel hfuel
  have hplay := plays_loop (run := fun ops => realEpisodes E fuel ops s) (fun N => f9 fuel hfuel (List.replicate N .next) (fun k hk => by
    rw [begun_nexts] at hk
    rw [Nat.le_zero.mp hk]
    exact hno))
  obtain ⟨⟨bs, b1, b2, b3⟩, b4⟩ := hplay
  exact ⟨⟨bs, b1, b2, fun i x hx => (b3 i x hx).1⟩, b4⟩

/-! ## Cases -/

/-- A sampler over the numbers below 5. -/
def demoNext (s : Nat) : Option (Except Exc Nat × Nat) := some (if s < 5 then (.ok s, s + 1) else (.error .stopIteration, s))

/-- A statement left by `break` in its second iteration, the one after it, and both in one. -/
example : forLoop demoNext (fun i _ => i == 1) 9 0 0 = some ([0, 1], .broken, 2) ∧
    forLoop demoNext (fun _ _ => false) 9 0 2 = some ([2, 3, 4], .exhausted, 5) ∧
    forLoop demoNext (fun _ _ => false) 9 0 0 = some ([0, 1, 2, 3, 4], .exhausted, 5) := by decide

/-- The real images of `Props/Whole.lean`: the body runs once, and the statement ends normally. -/
example : (match Make.make (world demoEnv) (.dict demoReal) with
    | .ok s => ((realRun demoEnv 6 2 s).getD []).map (fun r => match r with | .ok b => some (b.files.getD []) | .error _ => none)
    | .error _ => []) = [some ["b.mat", "a.mat", ""], none] ∧
    Make.Spec.ValueOr demoReal "loop" (.bool true) (.bool false) := ⟨by decide +kernel, .inr rfl⟩

/-- The episodes of `Props/Episodes.lean`: the body runs for both steps, then `EpisodeEnd`. -/
example : (match Make.make (world demoEpisodes) (.dict demoRealEpisodes) with
    | .ok s => ((nexts (fun ops => realEpisodes demoEpisodes 4 ops s) 3).getD []).map (fun r => match r with
      | .ok b => (b.files.getD [], none) | .error e => ([], some e))
    | .error _ => []) =
    [(["b/1.mat", "a/1.mat"], none), (["b/2.mat", "a/2.mat"], none), ([], some .episodeEnd)] := by decide +kernel

end Verif.Whole
