import Verif.Model.HydroMuscl

/-!
# The Euler equations of the high order solvers

`src/shared/EulerEquations.h`: `EulerEquations<2>` (namespace `Euler2`) and `EulerEquations<3>`
(namespace `Euler3`), used by the SDM solver.  Functions with an output argument return it.

Simplifications: a 2D state is an `HState` whose field `w` is never used and is copied or left `0`;
the `template <int dir>` parameter is a `Dir` (`Dir.z` does not occur in 2D: the body is skipped and the
uninitialised `tmp` would be copied; here the input is returned and no theorem is about it).
-/

namespace Verif

open ROps

variable {α : Type} [ROps α]

/-- `GradTensor` (`src/shared/EulerEquations.h:64`, `:461`): `g.ux` is `g[U_X]`, the derivative of the
velocity component `u` along `x`, and so on. -/
structure GradTensor (α : Type) where
  ux : α
  uy : α
  uz : α
  vx : α
  vy : α
  vz : α
  wx : α
  wy : α
  wz : α

/-- `Vector` (`src/shared/EulerEquations.h:67`, `:464`). -/
structure Vec3 (α : Type) where
  x : α
  y : α
  z : α

namespace Euler2

/-- `smallp` (`src/shared/EulerEquations.h:35`). -/
def smallp : α := lit (1 / 10000000)

/-- `compute_pressure` (`src/shared/EulerEquations.h:95-107`). -/
def compute_pressure (q : HState α) (gamma0 : α) : α :=
  let ekin := lit (1/2) * (q.u * q.u + q.v * q.v) / q.d
  let pressure := (gamma0 - lit 1) * (q.p - ekin)
  if gtb pressure (smallp * q.d) then pressure else smallp * q.d

/-- `compute_speed_of_sound` (`src/shared/EulerEquations.h:117-123`). -/
def compute_speed_of_sound (w : HState α) (gamma0 : α) : α := w.p * gamma0 / w.d

/-- `convert_to_primitive` (`src/shared/EulerEquations.h:131-150`). -/
def convert_to_primitive (q : HState α) (gamma0 : α) : HState α :=
  let rho := fmax q.d (lit (1 / 100000000))
  let ekin := lit (1/2) * (q.u * q.u + q.v * q.v) / rho
  let pressure := fmax ((gamma0 - lit 1) * (q.p - ekin)) (smallp * rho)
  { d := q.d, p := pressure, u := q.u / q.d, v := q.v / q.d, w := lit 0 }

/-- `flux_x` (`src/shared/EulerEquations.h:160-167`), `flux_y` (`:177-184`). -/
def flux (dir : Dir) (q : HState α) (p : α) : HState α :=
  match dir with
  | .y => { d := q.v
            u := q.v * q.u / q.d
            v := q.v * q.v / q.d + p
            w := lit 0
            p := q.v / q.d * (q.p + p) }
  | _ => { d := q.u
           u := q.u * q.u / q.d + p
           v := q.u * q.v / q.d
           w := lit 0
           p := q.u / q.d * (q.p + p) }

/-- `flux_visc_x` (`src/shared/EulerEquations.h:198-212`), `flux_visc_y` (`:226-240`). -/
def flux_visc (dir : Dir) (g : GradTensor α) (v f : Vec3 α) (mu : α) : HState α :=
  match dir with
  | .y =>
    let tau_yy := lit 2 * mu * (g.vy - lit (1/2) * (g.ux + g.vy))
    let tau_xy := mu * (g.vx + g.uy)
    { d := lit 0, u := tau_xy, v := tau_yy, w := lit 0, p := v.x * tau_xy + v.y * tau_yy + f.y }
  | _ =>
    let tau_xx := lit 2 * mu * (g.ux - lit (1/2) * (g.ux + g.vy))
    let tau_xy := mu * (g.vx + g.uy)
    { d := lit 0, u := tau_xx, v := tau_xy, w := lit 0, p := v.x * tau_xx + v.y * tau_xy + f.x }

/-- `cons_to_charac` (`src/shared/EulerEquations.h:273-326`). -/
def cons_to_charac (dir : Dir) (data q : HState α) (c gamma0 : α) : HState α :=
  let u := q.u / q.d
  let v := q.v / q.d
  let c2 := c * c
  let g1 := gamma0 - lit 1
  let beta := lit 1 / lit 2 / c2
  let V2 := u * u + v * v
  let H := lit (1/2) * V2 + c2 / g1
  let phi2 := g1 * H - c2
  match dir with
  | .x =>
    { d := data.d * beta * (phi2 + u * c) + data.u * (-beta * (g1 * u + c)) +
        data.v * (-beta * g1 * v) + data.p * beta * g1
      u := data.d * (lit 1 - phi2 / c2) + data.u * g1 * u / c2 + data.v * g1 * v / c2 +
        data.p * (-g1 / c2)
      v := data.d * (-v) + data.v
      w := data.w
      p := data.d * beta * (phi2 - u * c) + data.u * (-beta * (g1 * u - c)) +
        data.v * (-beta * g1 * v) + data.p * beta * g1 }
  | .y =>
    { d := data.d * beta * (phi2 + v * c) + data.u * (-beta * g1 * u) +
        data.v * (-beta * (g1 * v + c)) + data.p * beta * g1
      u := data.d * (lit 1 - phi2 / c2) + data.u * g1 * u / c2 + data.v * g1 * v / c2 +
        data.p * (-g1 / c2)
      v := data.d * (-u) + data.u
      w := data.w
      p := data.d * beta * (phi2 - v * c) + data.u * (-beta * g1 * u) +
        data.v * (-beta * (g1 * v - c)) + data.p * beta * g1 }
  | .z => data

/-- `charac_to_cons` (`src/shared/EulerEquations.h:360-408`). -/
def charac_to_cons (dir : Dir) (data q : HState α) (c gamma0 : α) : HState α :=
  let u := q.u / q.d
  let v := q.v / q.d
  let c2 := c * c
  let g1 := gamma0 - lit 1
  let V2 := u * u + v * v
  let H := lit (1/2) * V2 + c2 / g1
  match dir with
  | .x =>
    { d := data.d + data.u + data.p
      u := data.d * (u - c) + data.u * u + data.p * (u + c)
      v := data.d * v + data.u * v + data.v + data.p * v
      w := data.w
      p := data.d * (H - u * c) + data.u * V2 / lit 2 + data.v * v + data.p * (H + u * c) }
  | .y =>
    { d := data.d + data.u + data.p
      u := data.d * u + data.u * u + data.v + data.p * u
      v := data.d * (v - c) + data.u * v + data.p * (v + c)
      w := data.w
      p := data.d * (H - v * c) + data.u * V2 / lit 2 + data.v * u + data.p * (H + v * c) }
  | .z => data

end Euler2

namespace Euler3

/-- `smallp` (`src/shared/EulerEquations.h:428`). -/
def smallp : α := lit (1 / 10000000)

/-- `compute_pressure` (`src/shared/EulerEquations.h:492-504`). -/
def compute_pressure (q : HState α) (gamma0 : α) : α :=
  let ekin := lit (1/2) * (q.u * q.u + q.v * q.v + q.w * q.w) / q.d
  let pressure := (gamma0 - lit 1) * (q.p - ekin)
  if gtb pressure (smallp * q.d) then pressure else smallp * q.d

/-- `compute_speed_of_sound` (`src/shared/EulerEquations.h:514-520`). -/
def compute_speed_of_sound (w : HState α) (gamma0 : α) : α := w.p * gamma0 / w.d

/-- `convert_to_primitive` (`src/shared/EulerEquations.h:528-546`). -/
def convert_to_primitive (q : HState α) (gamma0 : α) : HState α :=
  let ekin := lit (1/2) * (q.u * q.u + q.v * q.v + q.w * q.w) / q.d
  let pressure := fmax ((gamma0 - lit 1) * (q.p - ekin)) (smallp * q.d)
  { d := q.d, p := pressure, u := q.u / q.d, v := q.v / q.d, w := q.w / q.d }

/-- `flux_x` (`src/shared/EulerEquations.h:557-567`), `flux_y` (`:577-587`), `flux_z`
(`:597-607`). -/
def flux (dir : Dir) (q : HState α) (p : α) : HState α :=
  match dir with
  | .x =>
    let u := q.u / q.d
    { d := q.u, u := u * q.u + p, v := u * q.v, w := u * q.w, p := u * (q.p + p) }
  | .y =>
    let v := q.v / q.d
    { d := q.v, u := v * q.u, v := v * q.v + p, w := v * q.w, p := v * (q.p + p) }
  | .z =>
    let w := q.w / q.d
    { d := q.w, u := w * q.u, v := w * q.v, w := w * q.w + p, p := w * (q.p + p) }

/-- `flux_visc_x` (`src/shared/EulerEquations.h:621-637`), `flux_visc_y` (`:651-667`), `flux_visc_z`
(`:681-697`). -/
def flux_visc (dir : Dir) (g : GradTensor α) (v f : Vec3 α) (mu : α) : HState α :=
  match dir with
  | .x =>
    let tau_xx := lit 2 * mu * (g.ux - lit 1 / lit 3 * (g.ux + g.vy + g.wz))
    let tau_yx := mu * (g.vx + g.uy)
    let tau_zx := mu * (g.wx + g.uz)
    { d := lit 0, u := tau_xx, v := tau_yx, w := tau_zx
      p := v.x * tau_xx + v.y * tau_yx + v.z * tau_zx + f.x }
  | .y =>
    let tau_xy := mu * (g.uy + g.vx)
    let tau_yy := lit 2 * mu * (g.vy - lit 1 / lit 3 * (g.ux + g.vy + g.wz))
    let tau_zy := mu * (g.wy + g.vz)
    { d := lit 0, u := tau_xy, v := tau_yy, w := tau_zy
      p := v.x * tau_xy + v.y * tau_yy + v.z * tau_zy + f.y }
  | .z =>
    let tau_xz := mu * (g.uz + g.wx)
    let tau_yz := mu * (g.vz + g.wy)
    let tau_zz := lit 2 * mu * (g.wz - lit 1 / lit 3 * (g.ux + g.vy + g.wz))
    { d := lit 0, u := tau_xz, v := tau_yz, w := tau_zz
      p := v.x * tau_xz + v.y * tau_yz + v.z * tau_zz + f.z }

/-- `cons_to_charac` (`src/shared/EulerEquations.h:737-811`). -/
def cons_to_charac (dir : Dir) (data q : HState α) (c gamma0 : α) : HState α :=
  let u := q.u / q.d
  let v := q.v / q.d
  let w := q.w / q.d
  let c2 := c * c
  let g1 := gamma0 - lit 1
  let beta := lit 1 / lit 2 / c2
  let V2 := u * u + v * v + w * w
  let H := lit (1/2) * V2 + c2 / g1
  let phi2 := g1 * H - c2
  match dir with
  | .x =>
    { d := data.d * beta * (phi2 + u * c) + data.u * (-beta * (g1 * u + c)) +
        data.v * (-beta * g1 * v) + data.w * (-beta * g1 * w) + data.p * beta * g1
      u := data.d * (lit 1 - phi2 / c2) + data.u * g1 * u / c2 + data.v * g1 * v / c2 +
        data.w * g1 * w / c2 + data.p * (-g1 / c2)
      v := data.d * (-v) + data.v
      w := data.d * (-w) + data.w
      p := data.d * beta * (phi2 - u * c) + data.u * (-beta * (g1 * u - c)) +
        data.v * (-beta * g1 * v) + data.w * (-beta * g1 * w) + data.p * beta * g1 }
  | .y =>
    { d := data.d * beta * (phi2 + v * c) + data.u * (-beta * g1 * u) +
        data.v * (-beta * (g1 * v + c)) + data.w * (-beta * g1 * w) + data.p * beta * g1
      u := data.d * (lit 1 - phi2 / c2) + data.u * g1 * u / c2 + data.v * g1 * v / c2 +
        data.w * g1 * w / c2 + data.p * (-g1 / c2)
      v := data.d * (-u) + data.u
      w := data.d * (-w) + data.w
      p := data.d * beta * (phi2 - v * c) + data.u * (-beta * g1 * u) +
        data.v * (-beta * (g1 * v - c)) + data.w * (-beta * g1 * w) + data.p * beta * g1 }
  | .z =>
    { d := data.d * beta * (phi2 + w * c) + data.u * (-beta * g1 * u) +
        data.v * (-beta * g1 * v) + data.w * (-beta * (g1 * w + c)) + data.p * beta * g1
      u := data.d * (lit 1 - phi2 / c2) + data.u * g1 * u / c2 + data.v * g1 * v / c2 +
        data.w * g1 * w / c2 + data.p * (-g1 / c2)
      v := data.d * (-u) + data.u
      w := data.d * (-v) + data.v
      p := data.d * beta * (phi2 - w * c) + data.u * (-beta * g1 * u) +
        data.v * (-beta * g1 * v) + data.w * (-beta * (g1 * w - c)) + data.p * beta * g1 }

/-- `charac_to_cons` (`src/shared/EulerEquations.h:852-916`). -/
def charac_to_cons (dir : Dir) (data q : HState α) (c gamma0 : α) : HState α :=
  let u := q.u / q.d
  let v := q.v / q.d
  let w := q.w / q.d
  let c2 := c * c
  let g1 := gamma0 - lit 1
  let V2 := u * u + v * v + w * w
  let H := lit (1/2) * V2 + c2 / g1
  match dir with
  | .x =>
    { d := data.d + data.u + data.p
      u := data.d * (u - c) + data.u * u + data.p * (u + c)
      v := data.d * v + data.u * v + data.v + data.p * v
      w := data.d * w + data.u * w + data.w + data.p * w
      p := data.d * (H - u * c) + data.u * V2 / lit 2 + data.v * v + data.w * w +
        data.p * (H + u * c) }
  | .y =>
    { d := data.d + data.u + data.p
      u := data.d * u + data.u * u + data.v + data.p * u
      v := data.d * (v - c) + data.u * v + data.p * (v + c)
      w := data.d * w + data.u * w + data.w + data.p * w
      p := data.d * (H - v * c) + data.u * V2 / lit 2 + data.v * u + data.w * w +
        data.p * (H + v * c) }
  | .z =>
    { d := data.d + data.u + data.p
      u := data.d * u + data.u * u + data.v + data.p * u
      v := data.d * v + data.u * v + data.w + data.p * v
      w := data.d * (w - c) + data.u * w + data.p * (w + c)
      p := data.d * (H - w * c) + data.u * V2 / lit 2 + data.v * u + data.w * v +
        data.p * (H + w * c) }

end Euler3

end Verif
