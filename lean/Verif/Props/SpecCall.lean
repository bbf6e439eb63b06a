import Verif.Props.Types
import Verif.Model.SpecCall
/-!
# Properties of calling the specification class (C151)
-/

namespace Verif.Types
open Verif Spec

/-- The names and default values of the documentation, in order. -/
def documented : List (String × Val) :=
  [("batch_size", .int 300), ("image_shape", .tuple [.int 256, .int 256]), ("img_offset", .tuple [.int 128, .int 128]),
    ("seeding_density_range", .tuple [.float (.fin (1/100)), .float (.fin (2/100))]),
    ("p_hide_img1", .float (.fin (1/100))), ("p_hide_img2", .float (.fin (1/100))),
    ("diameter_ranges", .list [.tuple [.float (.fin (1/10)), .float (.fin 1)]]), ("diameter_var", .float (.fin 1)),
    ("intensity_ranges", .list [.tuple [.int 50, .int 200]]), ("intensity_var", .float (.fin 1)),
    ("rho_ranges", .list [.tuple [.float (.fin (-99/100)), .float (.fin (99/100))]]), ("rho_var", .float (.fin 1)),
    ("dt", .float (.fin 1)), ("noise_uniform", .float (.fin 0)), ("noise_gaussian_mean", .float (.fin 0)),
    ("noise_gaussian_std", .float (.fin 0))]

/-- The arguments fit: at most sixteen positional ones, and every keyword is the name of a field that has no positional
argument. -/
def Fits (args : List Val) (kw : Kwargs) : Prop :=
  args.length ≤ 16 ∧ ∀ q ∈ kw, ∃ (i : Nat) (d : Val), documented[i]? = some (q.1, d) ∧ args.length ≤ i

theorem documented_eq : documented = Field.all.map (fun f => (f.name, Types.Spec.default.get f)) := rfl

theorem documented_get (i : Nat) (n : String) (d : Val) : documented[i]? = some (n, d) ↔
    ∃ f, Field.all[i]? = some f ∧ f.name = n ∧ Types.Spec.default.get f = d := by
  rw [documented_eq, List.getElem?_map]
  cases Field.all[i]? with
  | none => simp
  | some f => simp

theorem all_complete (f : Field) : f ∈ Field.all := by cases f <;> decide

theorem name_inj {f g : Field} (h : f.name = g.name) : f = g := by
  cases f <;> cases g <;> first | rfl | (exfalso; revert h; decide)

theorem all_nodup : Field.all.Nodup := by decide

/-- The lookup in the bound arguments. -/
theorem bindArgs_ok : ∀ (fs : List Field) (args : List Val) (kw bound : Kwargs), bindArgs fs args kw = .ok bound →
    args.length ≤ fs.length ∧ (∀ q ∈ kw, ∃ f : Field, f.name = q.1) ∧ (∀ (i : Nat) (f : Field), i < args.length → fs[i]? = some f → kw.lookup f.name = none) ∧
    (fs.Nodup → (∀ (i : Nat) (f : Field), fs[i]? = some f → bound.lookup f.name = (match args[i]? with | some v => some v | none => kw.lookup f.name)) ∧
      ∀ f : Field, f ∉ fs → bound.lookup f.name = kw.lookup f.name)
  | fs, [], kw, bound, h => by
    rw [bindArgs] at h
    split at h
    · rename_i hk
      cases h
      refine ⟨by simp, ?_, by simp, fun _ => ⟨by simp, fun _ _ => rfl⟩⟩
      intro q hq
      simp only [List.all_eq_true, List.any_eq_true, beq_iff_eq] at hk
      obtain ⟨f, _, hf⟩ := hk q hq
      exact ⟨f, hf⟩
    · cases h
  | [], v :: vs, kw, bound, h => by rw [bindArgs] at h; cases h
  | f :: fs, v :: vs, kw, bound, h => by
    rw [bindArgs] at h
    split at h
    · cases h
    · rename_i hk
      split at h
      · cases h
      · rename_i b hb
        cases h
        obtain ⟨h1, h2, h3, h4⟩ := bindArgs_ok fs vs kw b hb
        have hkn : kw.lookup f.name = none := by rwa [Option.not_isSome_iff_eq_none] at hk
        refine ⟨by simpa using h1, h2, ?_, ?_⟩
        · intro i g hi hg
          cases i with
          | zero => simp at hg; subst hg; exact hkn
          | succ i => exact h3 i g (by simpa using hi) (by simpa using hg)
        · intro hn
          rw [List.nodup_cons] at hn
          obtain ⟨h5, h6⟩ := h4 hn.2
          constructor
          · intro i g hg
            cases i with
            | zero => simp at hg; subst hg; simp [List.lookup]
            | succ i =>
              have hg' : fs[i]? = some g := by simpa using hg
              have hne : g ≠ f := fun e => hn.1 (e ▸ List.mem_of_getElem? hg')
              have : (g.name == f.name) = false := by
                rw [beq_eq_false_iff_ne]; exact fun e => hne (name_inj e)
              simp only [List.lookup_cons, this, List.getElem?_cons_succ]
              exact h5 i g hg'
          · intro g hg
            rw [List.mem_cons, not_or] at hg
            have : (g.name == f.name) = false := by
              rw [beq_eq_false_iff_ne]; exact fun e => hg.1 (name_inj e)
            simp only [List.lookup_cons, this]
            exact h6 g hg.2

theorem bindArgs_err : ∀ (fs : List Field) (args : List Val) (kw : Kwargs) (e : Exc), bindArgs fs args kw = .error e →
    e = .typeError ∧ (args.length ≤ fs.length → (∀ q ∈ kw, ∃ f : Field, f.name = q.1) →
      ∃ (i : Nat) (f : Field), i < args.length ∧ fs[i]? = some f ∧ kw.lookup f.name ≠ none)
  | fs, [], kw, e, h => by
    rw [bindArgs] at h
    split at h
    · cases h
    · rename_i hk
      cases h
      refine ⟨rfl, fun _ hq => absurd ?_ hk⟩
      simp only [List.all_eq_true, List.any_eq_true, beq_iff_eq]
      intro q hm
      obtain ⟨f, hf⟩ := hq q hm
      exact ⟨f, all_complete f, hf⟩
  | [], v :: vs, kw, e, h => by rw [bindArgs] at h; cases h; simp
  | f :: fs, v :: vs, kw, e, h => by
    rw [bindArgs] at h
    split at h
    · rename_i hk
      cases h
      refine ⟨rfl, fun _ _ => ⟨0, f, by simp, by simp, ?_⟩⟩
      rw [Option.isSome_iff_ne_none] at hk; exact hk
    · split at h
      · rename_i b hb
        cases h
        obtain ⟨h1, h2⟩ := bindArgs_err fs vs kw _ hb
        refine ⟨h1, fun hl hq => ?_⟩
        obtain ⟨i, g, hi, hg, hk⟩ := h2 (by simpa using hl) hq
        exact ⟨i + 1, g, by simpa using hi, by simpa using hg, hk⟩
      · cases h

/-- **C151.** For every list of positional and every set of keyword arguments: if they do not fit, `TypeError`; if they do,
every field has the value given at its place or under its name, and otherwise the documented default, and the result is
checked like any other (C45). -/
theorem C151_call (args : List Val) (kw : Kwargs) :
    (¬ Fits args kw → Spec.call args kw = .error .typeError) ∧
    (Fits args kw → ∃ target : Types.Spec,
      (∀ (i : Nat) (f : Field) (d : Val), documented[i]? = some (f.name, d) →
        target.get f = (match args[i]? with | some v => v | none => match kw.lookup f.name with | some v => v | none => d)) ∧
      Spec.call args kw = target.construct) := by
  have lk : ∀ (n : String), kw.lookup n ≠ none → ∃ v, (n, v) ∈ kw := by
    intro n hn
    by_contra hv
    apply hn
    rw [List.lookup_eq_none_iff]
    intro q hq
    rw [bne_iff_ne]
    rintro rfl
    exact hv ⟨q.2, hq⟩
  constructor
  · intro hn
    unfold Spec.call
    split
    · rename_i e he; rw [(bindArgs_err _ _ _ _ he).1]
    · rename_i b hb
      exfalso; apply hn
      obtain ⟨h1, h2, h3, _⟩ := bindArgs_ok _ _ _ _ hb
      refine ⟨h1, fun q hq => ?_⟩
      obtain ⟨f, hf⟩ := h2 q hq
      obtain ⟨i, hi⟩ := List.getElem?_of_mem (all_complete f)
      refine ⟨i, Types.Spec.default.get f, (documented_get _ _ _).2 ⟨f, hi, hf, rfl⟩, ?_⟩
      by_contra hlt
      have := h3 i f (by omega) hi
      rw [hf, List.lookup_eq_none_iff] at this
      simpa using this q hq
  · rintro ⟨hl, hk⟩
    unfold Spec.call
    split
    · rename_i e he
      exfalso
      obtain ⟨_, h2⟩ := bindArgs_err _ _ _ _ he
      obtain ⟨i, f, hi, hf, hne⟩ := h2 hl (fun q hq => by
        obtain ⟨i, d, hd, _⟩ := hk q hq
        obtain ⟨f, _, hf, _⟩ := (documented_get _ _ _).1 hd
        exact ⟨f, hf⟩)
      obtain ⟨v, hv⟩ := lk _ hne
      obtain ⟨j, d, hd, hj⟩ := hk _ hv
      obtain ⟨g, hg, hgn, _⟩ := (documented_get _ _ _).1 hd
      have := name_inj hgn; subst this
      have := (List.getElem?_inj (by have := List.getElem?_eq_some_iff.1 hf; exact this.1) all_nodup).1 (hf.trans hg.symm)
      omega
    · rename_i b hb
      obtain ⟨_, _, _, h4⟩ := bindArgs_ok _ _ _ _ hb
      obtain ⟨h5, _⟩ := h4 all_nodup
      obtain ⟨target, ht, he⟩ := (C46_update Types.Spec.default b).2
      refine ⟨target, fun i f d hd => ?_, he⟩
      obtain ⟨g, hg, hgn, hgd⟩ := (documented_get _ _ _).1 hd
      have := name_inj hgn; subst this
      rw [ht g, h5 i g hg, hgd]
      cases args[i]? <;> rfl

/-- **C151**, the defaults: without arguments the specification is accepted and meets all documented constraints. -/
theorem C151_defaults : ∃ s : Types.Spec, Spec.call [] [] = .ok s ∧ Valid s ∧
    ∀ (i : Nat) (f : Field) (d : Val), documented[i]? = some (f.name, d) → s.get f = d := by
  obtain ⟨target, ht, he⟩ := (C151_call [] []).2 ⟨by simp, by simp⟩
  have hg : ∀ (i : Nat) (f : Field) (d : Val), documented[i]? = some (f.name, d) → target.get f = d := fun i f d h => by simpa using ht i f d h
  have : target = Types.Spec.default := by
    have h : ∀ f, target.get f = Types.Spec.default.get f := fun f => by
      obtain ⟨i, hi⟩ := List.getElem?_of_mem (all_complete f)
      exact hg i f _ ((documented_get _ _ _).2 ⟨f, hi, rfl, rfl⟩)
    obtain ⟨a1, a2, a3, a4, a5, a6, a7, a8, a9, a10, a11, a12, a13, a14, a15, a16⟩ := target
    have e1 := h .batchSize; have e2 := h .imageShape; have e3 := h .imgOffset; have e4 := h .seedingDensityRange
    have e5 := h .pHide1; have e6 := h .pHide2; have e7 := h .diameterRanges; have e8 := h .diameterVar
    have e9 := h .intensityRanges; have e10 := h .intensityVar; have e11 := h .rhoRanges; have e12 := h .rhoVar
    have e13 := h .dt; have e14 := h .noiseUniform; have e15 := h .noiseGaussianMean; have e16 := h .noiseGaussianStd
    simp only [Types.Spec.get] at e1 e2 e3 e4 e5 e6 e7 e8 e9 e10 e11 e12 e13 e14 e15 e16
    subst e1 e2 e3 e4 e5 e6 e7 e8 e9 e10 e11 e12 e13 e14 e15 e16
    rfl
  subst this
  have ok : Types.Spec.default.construct = .ok Types.Spec.default := construct_eq (by decide +kernel)
  exact ⟨_, he.trans ok, (C45_accepts_documented_partial Types.Spec.default).2.1 (by constructor <;> (intro h; cases h)) |>.1 ok, hg⟩

/-- **C151**, misspelt names: the constructor rejects a keyword that is the name of no field, `update` ignores it. -/
theorem C151_misspelt (s : Types.Spec) (args : List Val) (kw : Kwargs) (name : String) (v : Val)
    (h : ∀ d, (name, d) ∉ documented) :
    Spec.call args ((name, v) :: kw) = .error .typeError ∧ s.update ((name, v) :: kw) = s.update kw := by
  constructor
  · apply (C151_call _ _).1
    rintro ⟨_, hk⟩
    obtain ⟨i, d, hd, _⟩ := hk (name, v) (by simp)
    exact h d (List.mem_of_getElem? hd)
  · have hne : ∀ f : Field, (f.name == name) = false := fun f => by
      rw [beq_eq_false_iff_ne]
      rintro rfl
      obtain ⟨i, hi⟩ := List.getElem?_of_mem (all_complete f)
      exact h _ (List.mem_of_getElem? ((documented_get i f.name _).2 ⟨f, hi, rfl, rfl⟩))
    have hk : ∀ (f : Field) (old : Val), kwGet ((name, v) :: kw) f.name old = kwGet kw f.name old := fun f old => by
      simp [kwGet, List.lookup_cons, hne f]
    have e1 := hk .batchSize; have e2 := hk .imageShape; have e3 := hk .imgOffset; have e4 := hk .seedingDensityRange
    have e5 := hk .pHide1; have e6 := hk .pHide2; have e7 := hk .diameterRanges; have e8 := hk .diameterVar
    have e9 := hk .intensityRanges; have e10 := hk .intensityVar; have e11 := hk .rhoRanges; have e12 := hk .rhoVar
    have e13 := hk .dt; have e14 := hk .noiseUniform; have e15 := hk .noiseGaussianMean; have e16 := hk .noiseGaussianStd
    simp only [Field.name] at e1 e2 e3 e4 e5 e6 e7 e8 e9 e10 e11 e12 e13 e14 e15 e16
    unfold Types.Spec.update
    rw [e1, e2, e3, e4, e5, e6, e7, e8, e9, e10, e11, e12, e13, e14, e15, e16]

/-- Arguments that fit, a name given twice, and a misspelt name. -/
example : Fits [.int 4] [("dt", .int 2)] := ⟨by decide, by
  intro q hq; simp at hq; subst hq; exact ⟨12, .float (.fin 1), rfl, by decide⟩⟩
example : ∃ s, Spec.call [.int 4] [("dt", .int 2)] = .ok s ∧ s.get .batchSize = .int 4 ∧ s.get .dt = .int 2 ∧ s.get .rhoVar = .float (.fin 1) :=
  ⟨_, construct_eq (by decide +kernel), rfl, rfl, rfl⟩
example : Spec.call [.int 4] [("batch_size", .int 2)] = .error .typeError := rfl
example : ∀ d, ("p_hide", d) ∉ documented := by
  intro d h; rw [documented_eq, List.mem_map] at h; obtain ⟨f, _, hf⟩ := h
  have e : f.name = "p_hide" := congrArg Prod.fst hf
  clear hf; revert e; cases f <;> decide

end Verif.Types
