import Verif.Props.Documented
import Verif.Proofs.MakeKeys
/-!
# The names of the units (C114)

The tutorial: "set `output_units` to what you need, choosing between `pixels` and `measure_units_per_second`".
-/

namespace Verif.Whole
open Verif Make

theorem item_lookup {d : Dict} {k : String} {v : Val} (h : item d k = .ok v) : d.lookup k = some v := by
  simp only [item] at h
  split at h
  · rename_i v' hv; cases h; exact hv
  · cases h

theorem synthBuild_units {E : Env} {p : Pipe} {a : SynthArgs} (h : (world E).synthInit p a = .ok ()) :
    a.outputUnits = .str "pixels" ∨ a.outputUnits = .str "measure units per second" := by
  have hb : ∃ s m, synthBuild E p a = .ok (s, m) := by
    simp only [world] at h
    split at h
    · rename_i x hx; exact ⟨x.1, x.2, hx⟩
    · cases h
  obtain ⟨s, m, hb⟩ := hb
  unfold synthBuild at hb
  split at hb
  · cases hb
  rename_i s' hs
  have hpx : s'.pixels = unitsOf a.outputUnits := by
    unfold synthArgs at hs
    obtain ⟨_, _, hs⟩ := Option.bind_eq_some_iff.mp hs
    obtain ⟨_, _, hs⟩ := Option.bind_eq_some_iff.mp hs
    obtain ⟨_, _, hs⟩ := Option.bind_eq_some_iff.mp hs
    obtain ⟨_, _, hs⟩ := Option.bind_eq_some_iff.mp hs
    obtain ⟨_, _, hs⟩ := Option.bind_eq_some_iff.mp hs
    obtain ⟨_, _, hs⟩ := Option.bind_eq_some_iff.mp hs
    obtain ⟨_, _, hs⟩ := Option.bind_eq_some_iff.mp hs
    obtain ⟨_, _, hs⟩ := Option.bind_eq_some_iff.mp hs
    obtain ⟨_, _, hs⟩ := Option.bind_eq_some_iff.mp hs
    obtain ⟨_, _, hs⟩ := Option.bind_eq_some_iff.mp hs
    obtain ⟨_, _, hs⟩ := Option.bind_eq_some_iff.mp hs
    obtain ⟨_, _, hs⟩ := Option.bind_eq_some_iff.mp hs
    obtain ⟨_, _, hs⟩ := Option.bind_eq_some_iff.mp hs
    obtain ⟨_, _, hs⟩ := Option.bind_eq_some_iff.mp hs
    obtain ⟨_, _, hs⟩ := Option.bind_eq_some_iff.mp hs
    cases hs
    rfl
  split at hb
  · rename_i m' hm
    have hne : s'.pixels ≠ none := by
      rw [(Synthetic.make_ok hm).2.2.2.2.2.2.1]
      simp
    rw [hpx] at hne
    unfold unitsOf at hne
    split at hne
    · rename_i h1; exact .inl h1
    · rename_i h1; exact .inr h1
    · exact absurd rfl hne
  · cases hb

theorem synthFromConfig_units {E : Env} {p p' : Pipe} {d : Dict} {a : SynthArgs} (h : synthFromConfig (world E) p d = .ok (.synthetic p' a)) :
    d.lookup "output_units" = some (.str "pixels") ∨ d.lookup "output_units" = some (.str "measure units per second") := by
  unfold synthFromConfig at h
  simp only [andThen_ok] at h
  obtain ⟨_, _, _, _, _, _, _, _, _, _, _, _, _, _, _, _, _, _, _, _, _, _, _, _, _, _, _, _, _, _, _, _, _, _, _, _, _, _,
    _, _, _, _, _, _, _, _, _, _, _, _, _, _, _, _, _, _, _, _, units, hunits, _, hinit, h⟩ := h
  have := synthBuild_units hinit
  rw [item_lookup hunits]
  rcases this with e | e
  · exact .inl (congrArg some e)
  · exact .inr (congrArg some e)

/-- **C114** (partial): a configuration from which `make` builds a synthetic sampler, on whatever machine and with whatever files, episodes or buffer, names the units "pixels" or
"measure units per second". -/
theorem C114_units_partial (E : Env) (d : Dict) (arg : Arg) (ha : Make.Spec.ConfigOf (world E) arg d) (p : Pipe) (a : SynthArgs) (h : make (world E) arg = .ok (.synthetic p a)) :
    d.lookup "output_units" = some (.str "pixels") ∨ d.lookup "output_units" = some (.str "measure units per second") := by
  rw [make_config ha] at h
  have h : fromDict (world E) d = .ok (.synthetic p a) := h
  unfold fromDict at h
  split at h
  · cases h
  rw [andThen_ok] at h
  obtain ⟨_, _, h⟩ := h
  split at h
  · cases h
  split at h
  · cases h
  rw [raiseIf_ok] at h
  obtain ⟨_, h⟩ := h
  split at h
  · simp only [andThen_ok, raiseIf_ok] at h
    obtain ⟨_, _, _, _, _, _, _, _, _, _, _, _, _, _, hfin⟩ := h
    unfold finish at hfin
    split at hfin
    · rw [andThen_ok] at hfin
      obtain ⟨_, _, h⟩ := hfin
      cases h
    · split at hfin
      · cases hfin
      · rw [andThen_ok] at hfin
        obtain ⟨_, _, hfin⟩ := hfin
        exact synthFromConfig_units hfin
  · cases h

/-- **C114 is false** for the units as the tutorial names them: `make` builds a synthetic sampler from no configuration that says "measure_units_per_second". -/
theorem C114_units_refuted (E : Env) (d : Dict) (hd : d.lookup "output_units" = some (.str "measure_units_per_second")) (arg : Arg) (ha : Make.Spec.ConfigOf (world E) arg d)
    (p : Pipe) (a : SynthArgs) : make (world E) arg ≠ .ok (.synthetic p a) := by
  intro h
  rcases C114_units_partial E d arg ha p a h with e | e <;> rw [hd] at e <;> simp at e

/-- The shipped configuration names the units as the code does and is accepted (`C114_shipped_mat_partial`); with the name from the tutorial it is not. -/
example : Documented.mainYaml.lookup "output_units" = some (Val.str "pixels") ∧ Documented.jhtdbYaml.lookup "output_units" = some (Val.str "measure units per second") ∧
    ∀ (E : Env) (p : Pipe) (a : SynthArgs), make (world E) (.dict (("output_units", Val.str "measure_units_per_second") :: Documented.mainYaml)) ≠ .ok (.synthetic p a) :=
  ⟨rfl, rfl, fun E p a => C114_units_refuted E (_ :: _) rfl (.dict _) rfl p a⟩

end Verif.Whole
