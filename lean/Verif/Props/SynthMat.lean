import Verif.Props.SynthAny
import Verif.Props.Complete
/-!
# Properties C116 and C117: synthetic images from MAT and NumPy files

C116 follows a configuration through `make` to the image batches, as C110 does for HDF5 files. C117 is about what becomes of the velocities
stored in MAT files.
-/

namespace Verif.Whole
open Verif Verif.Whole.Spec

/-! ## Specification -/

/-- The flow field file `p` of a NumPy data set holds the one array `a`; a file that cannot be read holds none. -/
def NpContents (io : Formats.NpIO ℚ) (X Z C : Nat) (fl : List String) (content : String → List (Arr ℚ)) : Prop :=
  ∀ p ∈ fl, (∃ a, content p = [a] ∧ io.npy p = .ok a ∧ a.shape = [X, Z, C] ∧ a.WF) ∨ (content p = [] ∧ ∃ e, io.npy p = .error e)

/-- `a` is component `k` (0 for `u`, 1 for `v`) of the stored array `v`, which has the layout `(h, w, 2)` or `(2, h, w)`. -/
def Component (v : Arr ℚ) (h w k : Nat) (a : Arr ℚ) : Prop :=
  a.shape = [h, w] ∧
  (v.shape = [h, w, 2] ∧ (∀ y i, y < h → i < w → a.at? [y, i] = v.at? [y, i, k]) ∨
   v.shape = [2, h, w] ∧ w ≠ 2 ∧ (∀ y i, y < h → i < w → a.at? [y, i] = v.at? [k, y, i]))

/-- What a scheduler for `H x W` flow fields makes of the stored array `v`: both components are resampled, unless they have that size, and
`u` is multiplied with `W / w`, `v` with `H / h`. -/
def Resized (io : Formats.MatIO) (H W : Nat) (v a : Arr ℚ) : Prop :=
  a.shape = [H, W, 2] ∧ a.WF ∧ ∃ h w us vs ru rv, 0 < h ∧ 0 < w ∧ Component v h w 0 us ∧ Component v h w 1 vs ∧
    (if (h, w) = (H, W) then ru = us ∧ rv = vs else io.resizeFlow us W H = .ok ru ∧ io.resizeFlow vs W H = .ok rv) ∧
    ∀ y i, y < H → i < W → a.at? [y, i, 0] = (ru.at? [y, i]).map (· * ((W : ℚ) / w)) ∧
      a.at? [y, i, 1] = (rv.at? [y, i]).map (· * ((H : ℚ) / h))

/-- The contents of MAT files as a scheduler for `H x W` flow fields sees them: one flow field made from the array `V`, or none, if the
file cannot be read, has no `V`, or `V` has not one of the two layouts (or no entry at all). -/
def MatContents (io : Formats.MatIO) (H W : Nat) (fl : List String) (content : String → List (Arr ℚ)) : Prop :=
  ∀ p ∈ fl,
    (∃ data v a, content p = [a] ∧ Formats.matRead io p = .ok data ∧ data.lookup "V" = some v ∧ Resized io H W v a) ∨
    (content p = [] ∧ ∀ data v, Formats.matRead io p = .ok data → data.lookup "V" = some v →
      ¬ ∃ h w, (v.shape = [h, w, 2] ∨ v.shape = [2, h, w]) ∧ 0 < h ∧ 0 < w)

/-- The arrays `V` of the files have at most three axes and as many entries as their shape says. -/
def Ordinary (io : Formats.MatIO) (fl : List String) : Prop :=
  ∀ p ∈ fl, ∀ data v, Formats.matRead io p = .ok data → data.lookup "V" = some v → v.WF ∧ v.shape.length ≤ 3

/-- The sampler serves, call by call and without end, the flow fields of the files in passes over all of them (each pass in the order of
`files` unless `rnd`): batch `n` shows the `flow_fields_per_batch` flow fields that come next after every `batches_per_flow_batch` batches. -/
def ServesForever (E : Env) (s : Make.Smp) (fuel : Nat) (files : List String) (rnd : Bool) (a : Synthetic.Args) (m : Synthetic.Made) (X Z : Nat)
    (content : String → List (Arr ℚ)) : Prop :=
  ∃ order : Nat → List String, (∀ k, (order k).Perm files) ∧ (rnd = false → ∀ k, order k = files) ∧ ∀ N, ∃ outs,
    synthRun E fuel (List.replicate N .next) s = some outs ∧ outs.length = N ∧
    ∃ K, N * m.cfg.ffpb ≤ ((List.range K).flatMap (fun k => SynthAny.fieldsOf content (order k))).length ∧
    ∀ n, n < N → ∃ x, outs[n]? = some (.batch x) ∧
      SynthAny.MadeOf (Synthetic.gen E.fl E.fl32 E.rand a m) m.cfg X Z n
        ((((List.range K).flatMap (fun k => SynthAny.fieldsOf content (order k))).drop (n / m.cfg.bpfb * m.cfg.ffpb)).take m.cfg.ffpb) x ∧
      (E.fl = id → E.fl32 = id → Generate.Lawful E.rand → Synthetic.WellFormed a m.cfg.batchSize x)

/-- The sampler serves one pass over the files in this way, then raises `StopIteration`. -/
def ServesOnce (E : Env) (s : Make.Smp) (fuel : Nat) (files : List String) (rnd : Bool) (a : Synthetic.Args) (m : Synthetic.Made) (X Z : Nat)
    (content : String → List (Arr ℚ)) : Prop :=
  ∃ order : List String, order.Perm files ∧ (rnd = false → order = files) ∧ ∃ outs,
    synthRun E fuel (List.replicate (((SynthAny.fieldsOf content files).length + m.cfg.ffpb - 1) / m.cfg.ffpb * m.cfg.bpfb + 1) .next) s =
      some outs ∧
    outs.length = ((SynthAny.fieldsOf content files).length + m.cfg.ffpb - 1) / m.cfg.ffpb * m.cfg.bpfb + 1 ∧
    (∀ n, n < ((SynthAny.fieldsOf content files).length + m.cfg.ffpb - 1) / m.cfg.ffpb * m.cfg.bpfb → ∃ x, outs[n]? = some (.batch x) ∧
      SynthAny.MadeOf (Synthetic.gen E.fl E.fl32 E.rand a m) m.cfg X Z n
        (((SynthAny.fieldsOf content order).drop (n / m.cfg.bpfb * m.cfg.ffpb)).take m.cfg.ffpb) x ∧
      (E.fl = id → E.fl32 = id → Generate.Lawful E.rand → Synthetic.WellFormed a m.cfg.batchSize x)) ∧
    outs[((SynthAny.fieldsOf content files).length + m.cfg.ffpb - 1) / m.cfg.ffpb * m.cfg.bpfb]? = some (.raised .stopIteration)

/-! ## Lemmas: MAT files -/

theorem matFit_resized {io : Formats.MatIO} (hpil : Formats.PilOK io) {c : Formats.MatCfg} (hH : 0 < c.height) (hW : 0 < c.width) {flow v : Arr ℚ}
    {h w : Nat} (hw : flow.WF) (hs : flow.shape = [h, w, 2]) (hc0 : Component v h w 0 (Formats.channel flow 0))
    (hc1 : Component v h w 1 (Formats.channel flow 1)) {f : Arr ℚ} (hf : Formats.matFit io c flow = .ok f) : Resized io c.height c.width v f := by
  obtain ⟨s0, w0, a0⟩ := Formats.channel_spec hs hw (show 0 < 2 by omega)
  obtain ⟨s1, w1, a1⟩ := Formats.channel_spec hs hw (show 1 < 2 by omega)
  unfold Formats.matFit at hf
  by_cases hsz : flow.shape.take 2 = [c.height, c.width]
  · rw [if_pos hsz] at hf
    simp only [Except.ok.injEq] at hf
    subst hf
    simp only [hs, List.take_succ_cons, List.take_zero, List.cons.injEq, and_true] at hsz
    obtain ⟨rfl, rfl⟩ := hsz
    refine ⟨hs, hw, _, _, _, _, _, _, hH, hW, hc0, hc1, by rw [if_pos rfl]; exact ⟨rfl, rfl⟩, ?_⟩
    intro y i hy hi
    have e1 : ((c.width : ℚ) / (c.width : ℚ)) = 1 := div_self (by exact_mod_cast hW.ne')
    have e2 : ((c.height : ℚ) / (c.height : ℚ)) = 1 := div_self (by exact_mod_cast hH.ne')
    rw [e1, e2, a0 y i hy hi, a1 y i hy hi]
    simp
  · rw [if_neg hsz] at hf
    simp only [hs] at hf
    split at hf
    · cases hf
    rename_i hz
    obtain ⟨ru, hru, sru, wru⟩ := hpil.flow _ h w c.width c.height s0 (by omega) (by omega) hW hH
    obtain ⟨rv, hrv, srv, wrv⟩ := hpil.flow _ h w c.width c.height s1 (by omega) (by omega) hW hH
    rw [hru, hrv] at hf
    obtain ⟨t, ht, hts, htw, hta⟩ := Formats.stackScaled_spec ((c.width : ℚ) / w) ((c.height : ℚ) / h) sru srv wru wrv
    simp only [ht, Except.ok.injEq] at hf
    subst hf
    refine ⟨hts, htw, h, w, _, _, ru, rv, by omega, by omega, hc0, hc1, ?_, hta⟩
    rw [if_neg]
    · exact ⟨hru, hrv⟩
    · intro e
      simp only [Prod.mk.injEq] at e
      apply hsz
      rw [hs, e.1, e.2]
      rfl

theorem matFlow_resized' {io : Formats.MatIO} (hpil : Formats.PilOK io) {c : Formats.MatCfg} (hH : 0 < c.height) (hW : 0 < c.width) {v : Arr ℚ}
    (hw : v.WF) (hax : v.shape.length ≤ 3) {f : Arr ℚ} (hf : Formats.matFlow io c v = .ok f) : Resized io c.height c.width v f := by
  unfold Formats.matFlow at hf
  match hvs : v.shape with
  | [] | [_] | [_, _] => simp [hvs] at hf
  | a :: b :: k :: d :: l => rw [hvs] at hax; simp at hax; omega
  | [a, b, k] =>
    simp only [hvs, List.getElem?_cons_succ, List.getElem?_cons_zero, Option.some.injEq] at hf
    by_cases hk : k = 2
    · subst hk
      simp only [true_or, if_true] at hf
      obtain ⟨s0, _, a0⟩ := Formats.channel_spec hvs hw (show 0 < 2 by omega)
      obtain ⟨s1, _, a1⟩ := Formats.channel_spec hvs hw (show 1 < 2 by omega)
      exact matFit_resized hpil hH hW hw hvs ⟨s0, .inl ⟨hvs, a0⟩⟩ ⟨s1, .inl ⟨hvs, a1⟩⟩ hf
    · by_cases ha : a = 2
      · subst ha
        simp only [or_true, if_true, if_neg hk] at hf
        obtain ⟨t, ht, hts, htw, hta⟩ := Formats.transpose120_spec hvs hw
        rw [ht] at hf
        obtain ⟨s0, _, a0⟩ := Formats.channel_spec hts htw (show 0 < 2 by omega)
        obtain ⟨s1, _, a1⟩ := Formats.channel_spec hts htw (show 1 < 2 by omega)
        exact matFit_resized hpil hH hW htw hts
          ⟨s0, .inr ⟨hvs, hk, fun y i hy hi => by rw [a0 y i hy hi, hta 0 y i (by omega) hy hi]⟩⟩
          ⟨s1, .inr ⟨hvs, hk, fun y i hy hi => by rw [a1 y i hy hi, hta 1 y i (by omega) hy hi]⟩⟩ hf
      · simp [hk, ha] at hf

theorem matFit_total {io : Formats.MatIO} (hpil : Formats.PilOK io) (c : Formats.MatCfg) (hH : 0 < c.height) (hW : 0 < c.width) {flow : Arr ℚ} {h w : Nat} (hw : flow.WF)
    (hs : flow.shape = [h, w, 2]) (hh : 0 < h) (hww : 0 < w) : ∃ f, Formats.matFit io c flow = .ok f := by
  obtain ⟨s0, _, _⟩ := Formats.channel_spec hs hw (show 0 < 2 by omega)
  obtain ⟨s1, _, _⟩ := Formats.channel_spec hs hw (show 1 < 2 by omega)
  unfold Formats.matFit
  split
  · exact ⟨_, rfl⟩
  · simp only [hs]
    rw [if_neg (by omega)]
    obtain ⟨ru, hru, sru, wru⟩ := hpil.flow _ h w c.width c.height s0 hh hww hW hH
    obtain ⟨rv, hrv, srv, wrv⟩ := hpil.flow _ h w c.width c.height s1 hh hww hW hH
    obtain ⟨t, ht, _⟩ := Formats.stackScaled_spec ((c.width : ℚ) / w) ((c.height : ℚ) / h) sru srv wru wrv
    rw [hru, hrv]
    exact ⟨t, ht⟩

theorem matFlow_total {io : Formats.MatIO} (hpil : Formats.PilOK io) (c : Formats.MatCfg) (hH : 0 < c.height) (hW : 0 < c.width) {v : Arr ℚ} {h w : Nat} (hw : v.WF)
    (hs : v.shape = [h, w, 2] ∨ v.shape = [2, h, w]) (hh : 0 < h) (hww : 0 < w) : ∃ f, Formats.matFlow io c v = .ok f := by
  unfold Formats.matFlow
  rcases hs with hs | hs
  · simp only [hs, List.getElem?_cons_succ, List.getElem?_cons_zero, true_or, if_true]
    exact matFit_total hpil c hH hW hw hs hh hww
  · simp only [hs, List.getElem?_cons_succ, List.getElem?_cons_zero, or_true, if_true]
    by_cases hk : w = 2
    · subst hk
      simp only [if_true]
      exact matFit_total hpil c hH hW hw hs (by omega) hh
    · simp only [if_neg hk]
      obtain ⟨t, ht, hts, htw, _⟩ := Formats.transpose120_spec hs hw
      rw [ht]
      exact matFit_total hpil c hH hW htw hts hh hww

/-- What a file contributes when no images are asked for. -/
def matContent (io : Formats.MatIO) (c : Formats.MatCfg) (p : String) : List (Arr ℚ) :=
  match Formats.matLoad io c p with
  | .ok x => [x.flow]
  | .error _ => []

theorem matLoad_inv {io : Formats.MatIO} {H W : Nat} {p : String} {x : Base.Sample ℚ} (h : Formats.matLoad io ⟨false, H, W⟩ p = .ok x) :
    ∃ data v, Formats.matRead io p = .ok data ∧ data.lookup "V" = some v ∧ Formats.matFlow io ⟨false, H, W⟩ v = .ok x.flow ∧
      x = ⟨x.flow, none, none, some [p]⟩ := by
  unfold Formats.matLoad at h
  cases hr : Formats.matRead io p with
  | error e => rw [hr] at h; cases h
  | ok data =>
    rw [hr] at h
    simp only at h
    cases hv : data.lookup "V" with
    | none => rw [hv] at h; cases h
    | some v =>
      rw [hv] at h
      simp only [Bool.false_eq_true, if_false] at h
      cases hf : Formats.matFlow io ⟨false, H, W⟩ v with
      | error e => rw [hf] at h; cases h
      | ok f => rw [hf] at h; cases h; exact ⟨data, v, rfl, hv, hf, rfl⟩

theorem mat_contents {io : Formats.MatIO} (hpil : Formats.PilOK io) {H W : Nat} (hH : 0 < H) (hW : 0 < W) {fl : List String} (ho : Ordinary io fl) :
    MatContents io H W fl (matContent io ⟨false, H, W⟩) := by
  intro p hp
  unfold matContent
  cases hl : Formats.matLoad io ⟨false, H, W⟩ p with
  | ok x =>
    left
    obtain ⟨data, v, h1, h2, h3, _⟩ := matLoad_inv hl
    obtain ⟨o1, o2⟩ := ho p hp data v h1 h2
    exact ⟨data, v, x.flow, rfl, h1, h2, matFlow_resized' (c := ⟨false, H, W⟩) hpil hH hW o1 o2 h3⟩
  | error e =>
    right
    refine ⟨rfl, ?_⟩
    rintro data v h1 h2 ⟨h, w, hs, hh, hw⟩
    obtain ⟨f, hf⟩ := matFlow_total hpil ⟨false, H, W⟩ hH hW (ho p hp data v h1 h2).1 hs hh hw
    unfold Formats.matLoad at hl
    simp only [h1, h2, Bool.false_eq_true, if_false, hf] at hl
    cases hl

theorem mat_reads {Key : Type} {io : Formats.MatIO} (hpil : Formats.PilOK io) {H W : Nat} (hH : 0 < H) (hW : 0 < W) {fl : List String}
    (ho : Ordinary io fl) (split : Key → Key × Key) (perm : Key → Nat → List Nat) :
    SynthAny.Reads (Formats.matWorld io ⟨false, H, W⟩ split perm) H W 2 fl (matContent io ⟨false, H, W⟩) := by
  intro p hp
  have hy := FormatInit.C87_one_sample io ⟨false, H, W⟩ split perm p
  have hm := mat_contents hpil hH hW ho p hp
  unfold SynthAny.samplesOf matContent
  unfold matContent at hm
  cases hl : Formats.matLoad io ⟨false, H, W⟩ p with
  | ok x =>
    rw [hl] at hm
    obtain ⟨_, _, _, _, _, hx⟩ := matLoad_inv hl
    refine ⟨?_, ?_⟩
    · have := (hy.1 x hl).1
      rw [hx] at this
      exact this
    · intro a ha
      rcases hm with ⟨data, v, a', e, _, _, hr⟩ | ⟨e, _⟩
      · simp only [List.cons.injEq, and_true] at e
        simp only [List.mem_singleton] at ha
        rw [ha, e]
        exact ⟨hr.1, hr.2.1⟩
      · simp at e
  | error e =>
    exact ⟨hy.2 e hl, by simp⟩

theorem np_reads {Key : Type} {io : Formats.NpIO ℚ} {X Z C : Nat} {fl : List String} {content : String → List (Arr ℚ)}
    (hc : NpContents io X Z C fl content) (split : Key → Key × Key) (perm : Key → Nat → List Nat) :
    SynthAny.Reads (Formats.npWorld io false split perm) X Z C fl content := by
  intro p hp
  unfold SynthAny.samplesOf
  rcases hc p hp with ⟨a, e, h1, h2, h3⟩ | ⟨e, err, h1⟩
  · rw [e]
    refine ⟨?_, by simpa using ⟨h2, h3⟩⟩
    have hl : (Formats.npWorld io false split perm).load p = .ok a := h1
    unfold Base.Yields
    rw [hl]
    refine ⟨?_, ?_⟩
    · intro i hi
      have : i = 0 := by simpa using hi
      subst this
      show Formats.npNext io false p a 0 = _
      simp [Formats.npNext, SynthAny.toSample]
    · show Formats.npNext io false p a 1 = _
      simp [Formats.npNext]
  · rw [e]
    refine ⟨?_, by simp⟩
    have hl : (Formats.npWorld io false split perm).load p = .error err := h1
    unfold Base.Yields
    rw [hl]
    rfl

/-! ## What `make` builds -/

theorem any_built {E : Env} {arg : Make.Arg} {d : Make.Dict} {s : Make.Smp} {kind : Make.Kind} (hd : Make.Spec.ConfigOf (world E) arg d)
    (h : Make.make (world E) arg = .ok s) (hp : Plain d kind false) :
    ∃ files c a m, FilesOf E kind d files ∧ Make.Spec.ValueOr d "randomize" (.bool false) (.bool c.randomize) ∧
      Make.Spec.ValueOr d "loop" (.bool true) (.bool c.loop) ∧ Configured E d a ∧ Synthetic.make E.fl E.fl32 a = .ok m ∧ a.isEpisodic = false ∧
      (∀ fuel ops, synthRun E fuel ops s = match kind with
        | .h5 => runOn E (h5World E) fuel a m c files (.seed 0) ops
        | .mat => runOn E (Formats.matWorld E.mat ⟨false, 256, 256⟩ KeyTerm.split2 E.perm) fuel a m c files (.seed 0) ops
        | .npy => runOn E (Formats.npWorld E.np false KeyTerm.split2 E.perm) fuel a m c files (.seed 0) ops) ∧
      (match kind with
        | .h5 => Formats.h5Shape (E.h5 ((Base.shuffle (h5World E) c files (.seed 0)).1.headD ""))
        | .mat => .ok [256, 256, 2]
        | .npy =>
          match E.np.npy ((Base.shuffle (h5World E) c files (.seed 0)).1.headD "") with
          | .ok x => .ok x.shape
          | .error e => .error e) =
        Except.ok (ε := Exc) [a.flowShape.1, a.flowShape.2, a.channels] := by
  obtain ⟨b, root, shape, ⟨files, c⟩, _, _, _, hsh, hb, hfin⟩ := make_steps hd h hp
  have hsh' : shape = none := by
    simp only [Bool.false_eq_true, if_false, Except.ok.injEq] at hsh
    exact hsh.symm
  subst hsh'
  obtain ⟨f1, _, _, f2, f3⟩ := base_files hb
  unfold Make.finish at hfin
  rw [if_neg (by decide)] at hfin
  split at hfin
  · cases hfin
  rw [if_neg (by decide)] at hfin
  simp only [Make.andThen_ok] at hfin
  obtain ⟨_, _, hfin⟩ := hfin
  obtain ⟨sa, a, m, hs, h1, h2, h3, h4, h5⟩ := synth_configured hfin
  refine ⟨files, c, a, m, f1, f2, f3, h3, h2, h5, ?_, ?_⟩
  · intro fuel ops
    rw [hs]
    simp only [synthRun]
    rw [hb, h1]
    cases kind <;> rfl
  · unfold threeOf at h4
    split at h4
    · rename_i x y z he
      simp only [Option.some.injEq, Prod.mk.injEq] at h4
      obtain ⟨h4, h6⟩ := h4
      rw [← h4, ← h6]
      simp only [pipeShape, flowShape] at he
      rw [hb] at he
      cases kind with
      | h5 => exact he
      | mat => exact he
      | npy => exact he
    · cases h4

theorem serves_forever {D : Type} {E : Env} {s : Make.Smp} {w : Base.World ℚ D KeyTerm} {X Z C : Nat} (hC : 2 ≤ C) {c : Base.Cfg}
    (hl : c.loop = true) (hperm : c.randomize = true → Base.PermOK w) {files : List String} (hnd : files.Nodup)
    {content : String → List (Arr ℚ)} (hc : SynthAny.Reads w X Z C files content) (hne : SynthAny.fieldsOf content files ≠ [])
    {d : Make.Dict} {a : Synthetic.Args} {m : Synthetic.Made} (f4 : Configured E d a) (f5 : Synthetic.make E.fl E.fl32 a = .ok m)
    (f6 : a.isEpisodic = false) (hdv : a.ndevices ∣ m.cfg.ffpb) {fuel : Nat} (hfuel : 2 * files.length ≤ fuel)
    (f7 : ∀ ops, synthRun E fuel ops s = runOn E w fuel a m c files (.seed 0) ops) :
    ServesForever E s fuel files c.randomize a m X Z content := by
  obtain ⟨_, _, _, g4, _⟩ := Synthetic.make_ok f5
  rw [f6] at g4
  obtain ⟨order, o1, o2, o3⟩ := SynthAny.looping w X Z C hC c hl hperm files hnd (.seed 0) content hc hne
    (Synthetic.gen E.fl E.fl32 E.rand a m) _ _ _ _ _ m.cfg g4 hdv fuel hfuel
  refine ⟨order, o1, o2, ?_⟩
  intro N
  obtain ⟨outs, st, r1, r2, K, r3, r4⟩ := o3 N
  refine ⟨outs, ?_, r2, K, r3, ?_⟩
  · rw [f7]
    unfold runOn
    rw [r1]
    rfl
  · intro n hn
    obtain ⟨x, x1, x2⟩ := r4 n hn
    refine ⟨x, x1, x2, ?_⟩
    intro e1 e2 hR
    rw [e1, e2] at r1
    rw [e1] at f5
    obtain ⟨n', w1, _⟩ := Synthetic.C89_base_partial w c fuel E.fl32 E.rand hR a m f5 (maskValues f4) _ _ outs st r1 x (List.mem_of_getElem? x1)
    have : n' = m.cfg.batchSize := by rw [← w1.images, x2.1]
    rwa [this] at w1

theorem serves_once {D : Type} {E : Env} {s : Make.Smp} {w : Base.World ℚ D KeyTerm} {X Z C : Nat} (hC : 2 ≤ C) {c : Base.Cfg}
    (hl : c.loop = false) (hperm : c.randomize = true → Base.PermOK w) {files : List String} (hnd : files.Nodup)
    {content : String → List (Arr ℚ)} (hc : SynthAny.Reads w X Z C files content)
    {d : Make.Dict} {a : Synthetic.Args} {m : Synthetic.Made} (f4 : Configured E d a) (f5 : Synthetic.make E.fl E.fl32 a = .ok m)
    (f6 : a.isEpisodic = false) (hdv : a.ndevices ∣ m.cfg.ffpb) {fuel : Nat} (hfuel : files.length < fuel)
    (f7 : ∀ ops, synthRun E fuel ops s = runOn E w fuel a m c files (.seed 0) ops) :
    ServesOnce E s fuel files c.randomize a m X Z content := by
  obtain ⟨_, _, _, g4, _⟩ := Synthetic.make_ok f5
  rw [f6] at g4
  obtain ⟨order, o1, o2, outs, st, r1, r2, r3, r4⟩ := SynthAny.ends w X Z C hC c hl hperm files hnd (.seed 0) content hc
    (Synthetic.gen E.fl E.fl32 E.rand a m) _ _ _ _ _ m.cfg g4 hdv fuel hfuel
  refine ⟨order, o1, o2, outs, ?_, r2, ?_, r4⟩
  · rw [f7]
    unfold runOn
    rw [r1]
    rfl
  · intro n hn
    obtain ⟨x, x1, x2⟩ := r3 n hn
    refine ⟨x, x1, x2, ?_⟩
    intro e1 e2 hR
    rw [e1, e2] at r1
    rw [e1] at f5
    obtain ⟨n', w1, _⟩ := Synthetic.C89_base_partial w c fuel E.fl32 E.rand hR a m f5 (maskValues f4) _ _ outs st r1 x (List.mem_of_getElem? x1)
    have : n' = m.cfg.batchSize := by rw [← w1.images, x2.1]
    rwa [this] at w1

/-! ## C116 -/

/-- **C116**, MAT files: from a configuration for synthetic images from MAT files, without episodes and buffer, that `make` accepts, the sampler
that comes out serves images of the flow fields in exactly the files of `file_list`, each resampled to 256 x 256, with the arguments of the
configuration: without end if `loop` is on (the default), one pass otherwise. -/
theorem C116_mat (E : Env) (arg : Make.Arg) (d : Make.Dict) (hd : Make.Spec.ConfigOf (world E) arg d) (s : Make.Smp)
    (h : Make.make (world E) arg = .ok s) (hp : Plain d .mat false) (hpil : Formats.PilOK E.mat) :
    ∃ files rnd lp a m, FilesOf E .mat d files ∧ Make.Spec.ValueOr d "randomize" (.bool false) (.bool rnd) ∧
      Make.Spec.ValueOr d "loop" (.bool true) (.bool lp) ∧ Configured E d a ∧ Synthetic.make E.fl E.fl32 a = .ok m ∧ Sizes a m.cfg ∧
      a.flowShape = (256, 256) ∧
      (Ordinary E.mat files → ∃ content, MatContents E.mat 256 256 files content ∧
        (files.Nodup → (rnd = true → ∀ k n, (E.perm k n).Perm (List.range n)) → a.ndevices ∣ m.cfg.ffpb →
          (lp = true → SynthAny.fieldsOf content files ≠ [] → ∀ fuel, 2 * files.length ≤ fuel →
            ServesForever E s fuel files rnd a m 256 256 content) ∧
          (lp = false → ∀ fuel, files.length < fuel → ServesOnce E s fuel files rnd a m 256 256 content))) := by
  obtain ⟨files, c, a, m, f1, f2, f3, f4, f5, f6, f7, f8⟩ := any_built hd h hp
  simp only [Except.ok.injEq, List.cons.injEq, and_true] at f8
  refine ⟨files, c.randomize, c.loop, a, m, f1, f2, f3, f4, f5, sizes_of_make f5 f6, Prod.ext f8.1.symm f8.2.1.symm, ?_⟩
  intro ho
  refine ⟨_, mat_contents hpil (by omega) (by omega) ho, ?_⟩
  intro hnd hrnd hdv
  have hr := mat_reads hpil (H := 256) (W := 256) (by omega) (by omega) ho KeyTerm.split2 E.perm
  exact ⟨fun hl hne fuel hfuel => serves_forever (w := Formats.matWorld E.mat ⟨false, 256, 256⟩ KeyTerm.split2 E.perm) (le_refl 2) hl hrnd hnd hr hne f4 f5 f6 hdv hfuel (f7 fuel),
    fun hl fuel hfuel => serves_once (w := Formats.matWorld E.mat ⟨false, 256, 256⟩ KeyTerm.split2 E.perm) (le_refl 2) hl hrnd hnd hr f4 f5 f6 hdv hfuel (f7 fuel)⟩

/-- **C116**, NumPy files: likewise, each file holding one flow field, all on the same grid. -/
theorem C116_npy (E : Env) (arg : Make.Arg) (d : Make.Dict) (hd : Make.Spec.ConfigOf (world E) arg d) (s : Make.Smp)
    (h : Make.make (world E) arg = .ok s) (hp : Plain d .npy false) :
    ∃ files rnd lp a m, FilesOf E .npy d files ∧ Make.Spec.ValueOr d "randomize" (.bool false) (.bool rnd) ∧
      Make.Spec.ValueOr d "loop" (.bool true) (.bool lp) ∧ Configured E d a ∧ Synthetic.make E.fl E.fl32 a = .ok m ∧ Sizes a m.cfg ∧
      ∀ X Z C content, NpContents E.np X Z C files content → 2 ≤ C → files.Nodup →
        (rnd = true → ∀ k n, (E.perm k n).Perm (List.range n)) → a.ndevices ∣ m.cfg.ffpb →
        a.flowShape = (X, Z) ∧
        (lp = true → SynthAny.fieldsOf content files ≠ [] → ∀ fuel, 2 * files.length ≤ fuel →
          ServesForever E s fuel files rnd a m X Z content) ∧
        (lp = false → ∀ fuel, files.length < fuel → ServesOnce E s fuel files rnd a m X Z content) := by
  obtain ⟨files, c, a, m, f1, f2, f3, f4, f5, f6, f7, f8⟩ := any_built hd h hp
  refine ⟨files, c.randomize, c.loop, a, m, f1, f2, f3, f4, f5, sizes_of_make f5 f6, ?_⟩
  intro X Z C content hc hC hnd hrnd hdv
  have hr := np_reads hc KeyTerm.split2 E.perm
  refine ⟨?_, fun hl hne fuel hfuel => serves_forever (w := Formats.npWorld E.np false KeyTerm.split2 E.perm) hC hl hrnd hnd hr hne f4 f5 f6 hdv hfuel (f7 fuel),
    fun hl fuel hfuel => serves_once (w := Formats.npWorld E.np false KeyTerm.split2 E.perm) hC hl hrnd hnd hr f4 f5 f6 hdv hfuel (f7 fuel)⟩
  have hmem : (Base.shuffle (h5World E) c files (.seed 0)).1.headD "" ∈ files := by
    have hperm : (Base.shuffle (h5World E) c files (.seed 0)).1.Perm files := Base.shuffle_perm (w := h5World E) hrnd files (.seed 0)
    have hne := f1.choose_spec.2.2.1
    cases hs : (Base.shuffle (h5World E) c files (.seed 0)).1 with
    | nil => rw [hs] at hperm; exact absurd hperm.symm.eq_nil hne
    | cons p l => rw [hs] at hperm; exact hperm.subset (by simp)
  rcases hc _ hmem with ⟨x, _, h1, h2, _⟩ | ⟨_, e, h1⟩
  · simp only [h1, h2, Except.ok.injEq, List.cons.injEq, and_true] at f8
    exact Prod.ext f8.1.symm f8.2.1.symm
  · simp only [h1] at f8
    cases f8

/-! ## Cases -/

/-- A resampling that keeps constants: every entry becomes the first one. -/
def demoResize (a : Arr ℚ) (w h : Nat) : Except Exc (Arr ℚ) := .ok (Arr.zeros (a.data.headD 0) [h, w])

/-- Two MAT files of different sizes and one that cannot be read; two NumPy files and one that cannot be read. -/
def demoFiles : Env :=
  { demoEnv with
    isFile := fun _ => true
    mat := { demoEnv.mat with
      scipy := fun p => if p = "a.mat" then .ok [("V", Arr.zeros 1 [512, 1024, 2])] else if p = "b.mat" then .ok [("V", ⟨[2, 1, 1], [3, 4]⟩)]
        else .error .fileNotFound
      resizeFlow := demoResize
      resizeImage := fun _ w h => .ok (Arr.zeros 1 [h, w]) }
    np := ⟨fun p => if p = "flow_1.npy" then .ok (Arr.zeros 1 [12, 12, 2]) else if p = "flow_2.npy" then .ok (Arr.zeros 3 [12, 12, 2]) else .error (.other 0),
      fun _ => .error (.other 0)⟩ }

/-- Configurations for synthetic images from them. -/
def demoMatDict : Make.Dict :=
  [("scheduler_class", .str ".mat"), ("file_list", .list [.str "a.mat", .str "x.mat", .str "b.mat"])] ++
    demoDict.filter (fun q => q.1 != "scheduler_class" && q.1 != "file_list")

def demoNpyDict : Make.Dict :=
  [("scheduler_class", .str ".npy"), ("file_list", .list [.str "flow_1.npy", .str "flow_2.npy"]), ("loop", .bool false)] ++
    demoDict.filter (fun q => q.1 != "scheduler_class" && q.1 != "file_list")

theorem demoFiles_pil : Formats.PilOK demoFiles.mat where
  flow _ _ _ w h _ _ _ _ _ := ⟨_, rfl, rfl, by simp [Arr.WF, Arr.zeros, List.length_replicate]⟩
  image a r w h hr := by
    simp only [demoFiles, Except.ok.injEq] at hr
    rw [← hr]; rfl

/-- The hypotheses of `C116_mat` are met. -/
example : (Make.make (world demoFiles) (.dict demoMatDict)).isOk = true ∧ Plain demoMatDict .mat false ∧
    Ordinary demoFiles.mat ["a.mat", "x.mat", "b.mat"] := by
  refine ⟨by decide +kernel, ⟨rfl, .inl ⟨rfl, rfl⟩, ⟨by decide, .inl ⟨rfl, rfl⟩⟩, ⟨by decide, .inl ⟨rfl, rfl⟩⟩⟩, ?_⟩
  intro p hp data v h1 h2
  simp only [List.mem_cons, List.not_mem_nil, or_false] at hp
  rcases hp with rfl | rfl | rfl
  · cases h1; cases h2
    exact ⟨by simp [Arr.WF, Arr.zeros], by simp [Arr.zeros]⟩
  · cases h1
  · cases h1; cases h2
    exact ⟨rfl, by simp⟩

/-- Likewise for `C116_npy`; three calls show two batches of the two flow fields, and the end. -/
example : Plain demoNpyDict .npy false ∧
    (match Make.make (world demoFiles) (.dict demoNpyDict) with
     | .ok s => ((synthRun demoFiles 6 (List.replicate 3 .next) s).getD []).map namesOf
     | .error _ => []) = [["flow_1.npy", "flow_2.npy"], ["flow_1.npy", "flow_2.npy"], []] ∧
    NpContents demoFiles.np 12 12 2 ["flow_1.npy", "flow_2.npy"] (fun p => if p = "flow_1.npy" then [Arr.zeros 1 [12, 12, 2]] else [Arr.zeros 3 [12, 12, 2]]) := by
  refine ⟨⟨rfl, .inl ⟨rfl, rfl⟩, ⟨by decide, .inl ⟨rfl, rfl⟩⟩, ⟨by decide, .inl ⟨rfl, rfl⟩⟩⟩, by decide +kernel, ?_⟩
  intro p hp
  simp only [List.mem_cons, List.not_mem_nil, or_false] at hp
  rcases hp with rfl | rfl
  · exact .inl ⟨_, rfl, rfl, rfl, by simp [Arr.WF, Arr.zeros]⟩
  · exact .inl ⟨_, rfl, rfl, rfl, by simp [Arr.WF, Arr.zeros]⟩

end Verif.Whole
