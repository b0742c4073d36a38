import Verif.Spec.SdmStep
import Verif.Model.SdmViscous

/-! What the velocity gradients of the spectral difference solver are. -/

namespace Verif.Sdm

open Verif

/-- Component `i` of the velocity at solution point `p` of cell `c`, from the conserved variables. -/
noncomputable def velocityOf (u : Vals ℝ) (i : ℕ) (c : Cell) (p : Pt) : ℝ := u c p (2 + i) / u c p 0

/-- The polynomial through the values `w` on the line in direction `d`, at flux point `p` of cell `c`. -/
noncomputable def atFlux (N : ℕ) (d : Dir) (w : Cell → Pt → ℝ) (c : Cell) (p : Pt) : ℝ :=
  lineValue N (fun k => w c (p.set d k)) (fluxPts N (p.get d))

/-- The same with the mean of the values from the two cells at the ends of the line. -/
noncomputable def meanAtFlux (N : ℕ) (d : Dir) (w : Cell → Pt → ℝ) (c : Cell) (p : Pt) : ℝ :=
  if p.get d = 0 then (atFlux N d w (c.down d) (p.set d N) + atFlux N d w c p) / 2
  else if p.get d = N then (atFlux N d w c p + atFlux N d w (c.up d) (p.set d 0)) / 2
  else atFlux N d w c p

/-- Derivative in direction `d` at solution point `p` of cell `c`, from values at flux points. -/
noncomputable def slopeAlong (N : ℕ) (S : Settings ℝ) (d : Dir) (f : Cell → Pt → ℝ) (c : Cell) (p : Pt) : ℝ :=
  lineSlope N (fun k => f c (p.set d k)) (solPts N (p.get d)) / width S d

end Verif.Sdm
