import Verif.Model.Synthetic
/-!
# Arguments that concern the looks of images only
-/

namespace Verif.Looks
open Verif

/-- The arguments of a synthetic sampler that concern brightness and shape of particles, noise, mask, histogram and random seed. -/
structure Style where
  seed : Int
  intensityRanges : List (ℚ × ℚ)
  intensityVar : ℚ
  rhoRanges : List (ℚ × ℚ)
  rhoVar : ℚ
  diameterVar : ℚ
  noiseUniform : ℚ
  noiseMean : ℚ
  noiseStd : ℚ
  mask : Option ((Nat × Nat) × (Nat → Nat → ℚ))
  histogram : Option (List ℚ)

/-- The arguments with these ones replaced. -/
def restyle (s : Style) (a : Synthetic.Args) : Synthetic.Args :=
  { a with
    spec := { a.spec with
      intensityRanges := s.intensityRanges, intensityVar := s.intensityVar, rhoRanges := s.rhoRanges, rhoVar := s.rhoVar
      diameterVar := s.diameterVar, noiseUniform := s.noiseUniform, noiseMean := s.noiseMean, noiseStd := s.noiseStd }
    seed := s.seed, mask := s.mask, histogram := s.histogram }

/-- What a call shows, with every image pair changed by `θ` and everything else as it is. -/
def images {O I I' : Type} (θ : I → I') : Sampler.Out (Sampler.OutBatch O I) → Sampler.Out (Sampler.OutBatch O I')
  | .batch b => .batch ⟨b.images.map θ, b.flows, b.mask, b.files, b.done⟩
  | .raised e => .raised e
  | .done => .done

/-- What a call shows apart from the images: of those only how many there are. -/
def apartFromImages {O I : Type} : Sampler.Out (Sampler.OutBatch O I) → Sampler.Out (Sampler.OutBatch O Unit) := images (fun _ => ())

/-- An image that is black where the mask is 0. -/
def blacked (m : Nat → Nat → ℚ) (img : Generate.Img ℚ) : Generate.Img ℚ := { img with at_ := fun j i => if m j i = 0 then 0 else img.at_ j i }

/-- Both images of a pair. -/
def blackedPair (m : Nat → Nat → ℚ) (p : Synthetic.Pair) : Synthetic.Pair := { p with first := blacked m p.first, second := blacked m p.second }

end Verif.Looks
