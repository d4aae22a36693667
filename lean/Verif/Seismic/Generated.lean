import Mathlib.LinearAlgebra.Matrix.Notation
import Mathlib.Data.Matrix.Mul
import Mathlib.Analysis.SpecialFunctions.Pow.Real
/-!
Transcription of the generated matrices of the seismic solver (`src/impl/seismic/generated/*.inc`): entry `[r][c]` of
the C++ array is entry `r c` of the matrix. `double` is idealised by exact arithmetic: any field for matrices without
roots, the real numbers for the others.
-/
namespace Edge.Seismic

/-- `std::pow( x, 1.5 )`. -/
noncomputable def pow15 (x : ℝ) : ℝ := x ^ (3 / 2 : ℝ)

section
variable {K : Type} [Field K]

/-- Transformation from the face-aligned to the physical frame, 2D; body of `common::setupTrafo2d` (src/impl/seismic/generated/TrafoElastic2D.inc:24-48). -/
def trafo2 (nx ny : K) : Matrix (Fin 5) (Fin 5) K := !![
  ((nx)^2), ((ny)^2), -2*nx*ny, 0, 0;
  ((ny)^2), ((nx)^2), 2*nx*ny, 0, 0;
  nx*ny, -(nx*ny), ((nx)^2) - ((ny)^2), 0, 0;
  0, 0, 0, nx, -ny;
  0, 0, 0, ny, nx]

/-- Transformation from the physical to the face-aligned frame, 2D; body of `common::setupTrafoInv2d` (src/impl/seismic/generated/TrafoInvElastic2D.inc:24-48). -/
def trafoInv2 (nx ny : K) : Matrix (Fin 5) (Fin 5) K := !![
  1 - ((ny)^2), ((ny)^2), 2*nx*ny, 0, 0;
  ((ny)^2), 1 - ((ny)^2), -2*nx*ny, 0, 0;
  -(nx*ny), nx*ny, 1 - 2*((ny)^2), 0, 0;
  0, 0, 0, nx, ny;
  0, 0, 0, -ny, nx]

/-- Transformation from the face-aligned to the physical frame, 3D; body of `common::setupTrafo3d` (src/impl/seismic/generated/Trafo3D.inc:24-104). -/
def trafo3 (nx ny nz sx sy sz tx ty tz : K) : Matrix (Fin 9) (Fin 9) K := !![
  ((nx)^2), ((sx)^2), ((tx)^2), 2*nx*sx, 2*sx*tx, 2*nx*tx, 0, 0, 0;
  ((ny)^2), ((sy)^2), ((ty)^2), 2*ny*sy, 2*sy*ty, 2*ny*ty, 0, 0, 0;
  ((nz)^2), ((sz)^2), ((tz)^2), 2*nz*sz, 2*sz*tz, 2*nz*tz, 0, 0, 0;
  nx*ny, sx*sy, tx*ty, ny*sx + nx*sy, sy*tx + sx*ty, ny*tx + nx*ty, 0, 0, 0;
  ny*nz, sy*sz, ty*tz, nz*sy + ny*sz, sz*ty + sy*tz, nz*ty + ny*tz, 0, 0, 0;
  nx*nz, sx*sz, tx*tz, nz*sx + nx*sz, sz*tx + sx*tz, nz*tx + nx*tz, 0, 0, 0;
  0, 0, 0, 0, 0, 0, nx, sx, tx;
  0, 0, 0, 0, 0, 0, ny, sy, ty;
  0, 0, 0, 0, 0, 0, nz, sz, tz]

/-- Transformation from the physical to the face-aligned frame, 3D; body of `common::setupTrafoInv3d` (src/impl/seismic/generated/TrafoInv3D.inc:24-104). -/
def trafoInv3 (nx ny nz sx sy sz tx ty tz : K) : Matrix (Fin 9) (Fin 9) K := !![
  ((sz*ty - sy*tz)^2)/((nz*sy*tx - ny*sz*tx - nz*sx*ty + nx*sz*ty + ny*sx*tz - nx*sy*tz)^2),
    ((sz*tx - sx*tz)^2)/((nz*sy*tx - ny*sz*tx - nz*sx*ty + nx*sz*ty + ny*sx*tz - nx*sy*tz)^2),
    ((sy*tx - sx*ty)^2)/((nz*sy*tx - ny*sz*tx - nz*sx*ty + nx*sz*ty + ny*sx*tz - nx*sy*tz)^2),
    (-2*(sz*tx - sx*tz)*(sz*ty - sy*tz))/((nz*sy*tx - ny*sz*tx - nz*sx*ty + nx*sz*ty + ny*sx*tz - nx*sy*tz)^2),
    (-2*(sy*tx - sx*ty)*(sz*tx - sx*tz))/((nz*sy*tx - ny*sz*tx - nz*sx*ty + nx*sz*ty + ny*sx*tz - nx*sy*tz)^2),
    (-2*(sy*tx - sx*ty)*(-(sz*ty) + sy*tz))/((nz*sy*tx - ny*sz*tx - nz*sx*ty + nx*sz*ty + ny*sx*tz - nx*sy*tz)^2),
    0,
    0,
    0;
  ((nz*ty - ny*tz)^2)/((nz*sy*tx - ny*sz*tx - nz*sx*ty + nx*sz*ty + ny*sx*tz - nx*sy*tz)^2),
    ((nz*tx - nx*tz)^2)/((nz*sy*tx - ny*sz*tx - nz*sx*ty + nx*sz*ty + ny*sx*tz - nx*sy*tz)^2),
    ((ny*tx - nx*ty)^2)/((nz*sy*tx - ny*sz*tx - nz*sx*ty + nx*sz*ty + ny*sx*tz - nx*sy*tz)^2),
    (-2*(nz*tx - nx*tz)*(nz*ty - ny*tz))/((nz*sy*tx - ny*sz*tx - nz*sx*ty + nx*sz*ty + ny*sx*tz - nx*sy*tz)^2),
    (-2*(ny*tx - nx*ty)*(nz*tx - nx*tz))/((nz*sy*tx - ny*sz*tx - nz*sx*ty + nx*sz*ty + ny*sx*tz - nx*sy*tz)^2),
    (-2*(ny*tx - nx*ty)*(-(nz*ty) + ny*tz))/((nz*sy*tx - ny*sz*tx - nz*sx*ty + nx*sz*ty + ny*sx*tz - nx*sy*tz)^2),
    0,
    0,
    0;
  ((nz*sy - ny*sz)^2)/((nz*sy*tx - ny*sz*tx - nz*sx*ty + nx*sz*ty + ny*sx*tz - nx*sy*tz)^2),
    ((nz*sx - nx*sz)^2)/((nz*sy*tx - ny*sz*tx - nz*sx*ty + nx*sz*ty + ny*sx*tz - nx*sy*tz)^2),
    ((ny*sx - nx*sy)^2)/((nz*sy*tx - ny*sz*tx - nz*sx*ty + nx*sz*ty + ny*sx*tz - nx*sy*tz)^2),
    (-2*(nz*sx - nx*sz)*(nz*sy - ny*sz))/((nz*sy*tx - ny*sz*tx - nz*sx*ty + nx*sz*ty + ny*sx*tz - nx*sy*tz)^2),
    (-2*(ny*sx - nx*sy)*(nz*sx - nx*sz))/((nz*sy*tx - ny*sz*tx - nz*sx*ty + nx*sz*ty + ny*sx*tz - nx*sy*tz)^2),
    (-2*(ny*sx - nx*sy)*(-(nz*sy) + ny*sz))/((nz*sy*tx - ny*sz*tx - nz*sx*ty + nx*sz*ty + ny*sx*tz - nx*sy*tz)^2),
    0,
    0,
    0;
  -(((nz*ty - ny*tz)*(sz*ty - sy*tz))/((nz*sy*tx - ny*sz*tx - nz*sx*ty + nx*sz*ty + ny*sx*tz - nx*sy*tz)^2)),
    -(((nz*tx - nx*tz)*(sz*tx - sx*tz))/((nz*sy*tx - ny*sz*tx - nz*sx*ty + nx*sz*ty + ny*sx*tz - nx*sy*tz)^2)),
    -(((ny*tx - nx*ty)*(sy*tx - sx*ty))/((nz*sy*tx - ny*sz*tx - nz*sx*ty + nx*sz*ty + ny*sx*tz - nx*sy*tz)^2)),
    (tz*(-(ny*sz*tx) - nx*sz*ty + ny*sx*tz + nx*sy*tz) + nz*(2*sz*tx*ty - (sy*tx + sx*ty)*tz))/((nz*sy*tx - ny*sz*tx - nz*sx*ty + nx*sz*ty + ny*sx*tz - nx*sy*tz)^2),
    (nz*tx*(sy*tx - sx*ty) + ny*tx*(sz*tx - sx*tz) - nx*(sz*tx*ty + sy*tx*tz - 2*sx*ty*tz))/((nz*sy*tx - ny*sz*tx - nz*sx*ty + nx*sz*ty + ny*sx*tz - nx*sy*tz)^2),
    (nz*ty*(-(sy*tx) + sx*ty) + nx*ty*(sz*ty - sy*tz) - ny*(sz*tx*ty - 2*sy*tx*tz + sx*ty*tz))/((nz*sy*tx - ny*sz*tx - nz*sx*ty + nx*sz*ty + ny*sx*tz - nx*sy*tz)^2),
    0,
    0,
    0;
  -(((nz*sy - ny*sz)*(nz*ty - ny*tz))/((nz*sy*tx - ny*sz*tx - nz*sx*ty + nx*sz*ty + ny*sx*tz - nx*sy*tz)^2)),
    -(((nz*sx - nx*sz)*(nz*tx - nx*tz))/((nz*sy*tx - ny*sz*tx - nz*sx*ty + nx*sz*ty + ny*sx*tz - nx*sy*tz)^2)),
    -(((ny*sx - nx*sy)*(ny*tx - nx*ty))/((nz*sy*tx - ny*sz*tx - nz*sx*ty + nx*sz*ty + ny*sx*tz - nx*sy*tz)^2)),
    (((nz)^2)*(sy*tx + sx*ty) + 2*nx*ny*sz*tz - nz*(ny*sz*tx + nx*sz*ty + ny*sx*tz + nx*sy*tz))/((nz*sy*tx - ny*sz*tx - nz*sx*ty + nx*sz*ty + ny*sx*tz - nx*sy*tz)^2),
    (ny*(2*nz*sx*tx - nx*(sz*tx + sx*tz)) + nx*(-(nz*(sy*tx + sx*ty)) + nx*(sz*ty + sy*tz)))/((nz*sy*tx - ny*sz*tx - nz*sx*ty + nx*sz*ty + ny*sx*tz - nx*sy*tz)^2),
    (2*nx*nz*sy*ty + ((ny)^2)*(sz*tx + sx*tz) - ny*(nz*sy*tx + nz*sx*ty + nx*sz*ty + nx*sy*tz))/((nz*sy*tx - ny*sz*tx - nz*sx*ty + nx*sz*ty + ny*sx*tz - nx*sy*tz)^2),
    0,
    0,
    0;
  -(((nz*sy - ny*sz)*(-(sz*ty) + sy*tz))/((nz*sy*tx - ny*sz*tx - nz*sx*ty + nx*sz*ty + ny*sx*tz - nx*sy*tz)^2)),
    -(((nz*sx - nx*sz)*(-(sz*tx) + sx*tz))/((nz*sy*tx - ny*sz*tx - nz*sx*ty + nx*sz*ty + ny*sx*tz - nx*sy*tz)^2)),
    -(((ny*sx - nx*sy)*(-(sy*tx) + sx*ty))/((nz*sy*tx - ny*sz*tx - nz*sx*ty + nx*sz*ty + ny*sx*tz - nx*sy*tz)^2)),
    (sz*(ny*sz*tx + nx*sz*ty - ny*sx*tz - nx*sy*tz) - nz*(sy*sz*tx + sx*sz*ty - 2*sx*sy*tz))/((nz*sy*tx - ny*sz*tx - nz*sx*ty + nx*sz*ty + ny*sx*tz - nx*sy*tz)^2),
    (nz*sx*(-(sy*tx) + sx*ty) + ny*sx*(-(sz*tx) + sx*tz) + nx*(2*sy*sz*tx - sx*sz*ty - sx*sy*tz))/((nz*sy*tx - ny*sz*tx - nz*sx*ty + nx*sz*ty + ny*sx*tz - nx*sy*tz)^2),
    (nz*sy*(sy*tx - sx*ty) + nx*sy*(-(sz*ty) + sy*tz) - ny*(sy*sz*tx - 2*sx*sz*ty + sx*sy*tz))/((nz*sy*tx - ny*sz*tx - nz*sx*ty + nx*sz*ty + ny*sx*tz - nx*sy*tz)^2),
    0,
    0,
    0;
  0,
    0,
    0,
    0,
    0,
    0,
    (sz*ty - sy*tz)/(nz*sy*tx - ny*sz*tx - nz*sx*ty + nx*sz*ty + ny*sx*tz - nx*sy*tz),
    (sz*tx - sx*tz)/(-(nz*sy*tx) + ny*sz*tx + nz*sx*ty - nx*sz*ty - ny*sx*tz + nx*sy*tz),
    (sy*tx - sx*ty)/(nz*sy*tx - ny*sz*tx - nz*sx*ty + nx*sz*ty + ny*sx*tz - nx*sy*tz);
  0,
    0,
    0,
    0,
    0,
    0,
    (nz*ty - ny*tz)/(-(nz*sy*tx) + ny*sz*tx + nz*sx*ty - nx*sz*ty - ny*sx*tz + nx*sy*tz),
    (nz*tx - nx*tz)/(nz*sy*tx - ny*sz*tx - nz*sx*ty + nx*sz*ty + ny*sx*tz - nx*sy*tz),
    (ny*tx - nx*ty)/(-(nz*sy*tx) + ny*sz*tx + nz*sx*ty - nx*sz*ty - ny*sx*tz + nx*sy*tz);
  0,
    0,
    0,
    0,
    0,
    0,
    (nz*sy - ny*sz)/(nz*sy*tx - ny*sz*tx - nz*sx*ty + nx*sz*ty + ny*sx*tz - nx*sy*tz),
    (nz*sx - nx*sz)/(-(nz*sy*tx) + ny*sz*tx + nz*sx*ty - nx*sz*ty - ny*sx*tz + nx*sy*tz),
    (ny*sx - nx*sy)/(nz*sy*tx - ny*sz*tx - nz*sx*ty + nx*sz*ty + ny*sx*tz - nx*sy*tz)]

/-- Left contribution to the Riemann solution in the face-aligned frame (src/impl/seismic/generated/FlMidElastic2D.inc:24-48). -/
noncomputable def flMidElastic2 (rhoL rhoR lamL lamR muL muR : ℝ) : Matrix (Fin 5) (Fin 5) ℝ := !![
  ((pow15 ((lamL + 2*muL)/rhoL))*rhoL*Real.sqrt ((lamR + 2*muR)/rhoR))/(lamR*Real.sqrt ((lamL + 2*muL)/rhoL) + 2*muR*Real.sqrt ((lamL + 2*muL)/rhoL) + (lamL + 2*muL)*Real.sqrt ((lamR + 2*muR)/rhoR)),
    0,
    0,
    -((((lamL + 2*muL)^2)*Real.sqrt ((lamR + 2*muR)/rhoR))/(lamR*Real.sqrt ((lamL + 2*muL)/rhoL) + 2*muR*Real.sqrt ((lamL + 2*muL)/rhoL) + (lamL + 2*muL)*Real.sqrt ((lamR + 2*muR)/rhoR))),
    0;
  (lamL*Real.sqrt ((lamL + 2*muL)/rhoL)*Real.sqrt ((lamR + 2*muR)/rhoR))/(lamR*Real.sqrt ((lamL + 2*muL)/rhoL) + 2*muR*Real.sqrt ((lamL + 2*muL)/rhoL) + (lamL + 2*muL)*Real.sqrt ((lamR + 2*muR)/rhoR)),
    0,
    0,
    -((lamL*(lamL + 2*muL)*Real.sqrt ((lamR + 2*muR)/rhoR))/(lamR*Real.sqrt ((lamL + 2*muL)/rhoL) + 2*muR*Real.sqrt ((lamL + 2*muL)/rhoL) + (lamL + 2*muL)*Real.sqrt ((lamR + 2*muR)/rhoR))),
    0;
  0,
    0,
    (muL*Real.sqrt (muL/rhoL)*Real.sqrt (muR/rhoR))/(muR*Real.sqrt (muL/rhoL) + muL*Real.sqrt (muR/rhoR)),
    0,
    -((((muL)^2)*Real.sqrt (muR/rhoR))/(muR*Real.sqrt (muL/rhoL) + muL*Real.sqrt (muR/rhoR)));
  -(((lamR + 2*muR)*Real.sqrt ((lamL + 2*muL)/rhoL))/(rhoL*(lamR*Real.sqrt ((lamL + 2*muL)/rhoL) + 2*muR*Real.sqrt ((lamL + 2*muL)/rhoL) + (lamL + 2*muL)*Real.sqrt ((lamR + 2*muR)/rhoR)))),
    0,
    0,
    ((lamL + 2*muL)*(lamR + 2*muR))/(rhoL*(lamR*Real.sqrt ((lamL + 2*muL)/rhoL) + 2*muR*Real.sqrt ((lamL + 2*muL)/rhoL) + (lamL + 2*muL)*Real.sqrt ((lamR + 2*muR)/rhoR))),
    0;
  0,
    0,
    -((muR*Real.sqrt (muL/rhoL))/(muR*Real.sqrt (muL/rhoL)*rhoL + muL*rhoL*Real.sqrt (muR/rhoR))),
    0,
    (muL*muR)/(muR*Real.sqrt (muL/rhoL)*rhoL + muL*rhoL*Real.sqrt (muR/rhoR))]

/-- Right contribution to the Riemann solution in the face-aligned frame (src/impl/seismic/generated/FrMidElastic2D.inc:24-48). -/
noncomputable def frMidElastic2 (rhoL rhoR lamL lamR muL muR : ℝ) : Matrix (Fin 5) (Fin 5) ℝ := !![
  -(((pow15 ((lamL + 2*muL)/rhoL))*rhoL*Real.sqrt ((lamR + 2*muR)/rhoR))/(lamR*Real.sqrt ((lamL + 2*muL)/rhoL) + 2*muR*Real.sqrt ((lamL + 2*muL)/rhoL) + (lamL + 2*muL)*Real.sqrt ((lamR + 2*muR)/rhoR))),
    0,
    0,
    -(((lamR + 2*muR)*(pow15 ((lamL + 2*muL)/rhoL))*rhoL)/(lamR*Real.sqrt ((lamL + 2*muL)/rhoL) + 2*muR*Real.sqrt ((lamL + 2*muL)/rhoL) + (lamL + 2*muL)*Real.sqrt ((lamR + 2*muR)/rhoR))),
    0;
  -((lamL*Real.sqrt ((lamL + 2*muL)/rhoL)*Real.sqrt ((lamR + 2*muR)/rhoR))/(lamR*Real.sqrt ((lamL + 2*muL)/rhoL) + 2*muR*Real.sqrt ((lamL + 2*muL)/rhoL) + (lamL + 2*muL)*Real.sqrt ((lamR + 2*muR)/rhoR))),
    0,
    0,
    -((lamL*(lamR + 2*muR)*Real.sqrt ((lamL + 2*muL)/rhoL))/(lamR*Real.sqrt ((lamL + 2*muL)/rhoL) + 2*muR*Real.sqrt ((lamL + 2*muL)/rhoL) + (lamL + 2*muL)*Real.sqrt ((lamR + 2*muR)/rhoR))),
    0;
  0,
    0,
    -((muL*Real.sqrt (muL/rhoL)*Real.sqrt (muR/rhoR))/(muR*Real.sqrt (muL/rhoL) + muL*Real.sqrt (muR/rhoR))),
    0,
    -((muL*muR*Real.sqrt (muL/rhoL))/(muR*Real.sqrt (muL/rhoL) + muL*Real.sqrt (muR/rhoR)));
  -(((lamL + 2*muL)*Real.sqrt ((lamR + 2*muR)/rhoR))/(rhoL*(lamR*Real.sqrt ((lamL + 2*muL)/rhoL) + 2*muR*Real.sqrt ((lamL + 2*muL)/rhoL) + (lamL + 2*muL)*Real.sqrt ((lamR + 2*muR)/rhoR)))),
    0,
    0,
    -(((lamL + 2*muL)*(lamR + 2*muR))/(rhoL*(lamR*Real.sqrt ((lamL + 2*muL)/rhoL) + 2*muR*Real.sqrt ((lamL + 2*muL)/rhoL) + (lamL + 2*muL)*Real.sqrt ((lamR + 2*muR)/rhoR)))),
    0;
  0,
    0,
    -((muL*Real.sqrt (muR/rhoR))/(muR*Real.sqrt (muL/rhoL)*rhoL + muL*rhoL*Real.sqrt (muR/rhoR))),
    0,
    -((muL*muR)/(muR*Real.sqrt (muL/rhoL)*rhoL + muL*rhoL*Real.sqrt (muR/rhoR)))]

/-- Left contribution to the Riemann solution in the face-aligned frame (src/impl/seismic/generated/FlMidAcoustic2D.inc:25-49). -/
noncomputable def flMidAcoustic2 (rhoL rhoR lamL lamR muL muR : ℝ) : Matrix (Fin 5) (Fin 5) ℝ := !![
  (lamL*Real.sqrt (lamL/rhoL)*Real.sqrt (lamR/rhoR))/(lamR*Real.sqrt (lamL/rhoL) + lamL*Real.sqrt (lamR/rhoR)),
    0,
    0,
    -((((lamL)^2)*Real.sqrt (lamR/rhoR))/(lamR*Real.sqrt (lamL/rhoL) + lamL*Real.sqrt (lamR/rhoR))),
    0;
  (lamL*Real.sqrt (lamL/rhoL)*Real.sqrt (lamR/rhoR))/(lamR*Real.sqrt (lamL/rhoL) + lamL*Real.sqrt (lamR/rhoR)),
    0,
    0,
    -((((lamL)^2)*Real.sqrt (lamR/rhoR))/(lamR*Real.sqrt (lamL/rhoL) + lamL*Real.sqrt (lamR/rhoR))),
    0;
  0, 0, 0, 0, 0;
  -((lamR*Real.sqrt (lamL/rhoL))/(lamR*Real.sqrt (lamL/rhoL)*rhoL + lamL*rhoL*Real.sqrt (lamR/rhoR))),
    0,
    0,
    (lamL*lamR)/(lamR*Real.sqrt (lamL/rhoL)*rhoL + lamL*rhoL*Real.sqrt (lamR/rhoR)),
    0;
  0, 0, -(1/rhoL), 0, 0]

/-- Right contribution to the Riemann solution in the face-aligned frame (src/impl/seismic/generated/FrMidAcoustic2D.inc:25-49). -/
noncomputable def frMidAcoustic2 (rhoL rhoR lamL lamR muL muR : ℝ) : Matrix (Fin 5) (Fin 5) ℝ := !![
  -((lamL*Real.sqrt (lamL/rhoL)*Real.sqrt (lamR/rhoR))/(lamR*Real.sqrt (lamL/rhoL) + lamL*Real.sqrt (lamR/rhoR))),
    0,
    0,
    -((lamL*lamR*Real.sqrt (lamL/rhoL))/(lamR*Real.sqrt (lamL/rhoL) + lamL*Real.sqrt (lamR/rhoR))),
    0;
  -((lamL*Real.sqrt (lamL/rhoL)*Real.sqrt (lamR/rhoR))/(lamR*Real.sqrt (lamL/rhoL) + lamL*Real.sqrt (lamR/rhoR))),
    0,
    0,
    -((lamL*lamR*Real.sqrt (lamL/rhoL))/(lamR*Real.sqrt (lamL/rhoL) + lamL*Real.sqrt (lamR/rhoR))),
    0;
  0, 0, 0, 0, 0;
  -((lamL*Real.sqrt (lamR/rhoR))/(lamR*Real.sqrt (lamL/rhoL)*rhoL + lamL*rhoL*Real.sqrt (lamR/rhoR))),
    0,
    0,
    -((lamL*lamR)/(lamR*Real.sqrt (lamL/rhoL)*rhoL + lamL*rhoL*Real.sqrt (lamR/rhoR))),
    0;
  0, 0, 0, 0, 0]

/-- Left contribution to the Riemann solution in the face-aligned frame (src/impl/seismic/generated/FlMid3D.inc:24-104). -/
noncomputable def flMid3raw (rhoL rhoR lamL lamR muL muR : ℝ) : Matrix (Fin 9) (Fin 9) ℝ := !![
  -(((-lamL - 2*muL)*Real.sqrt ((lamL + 2*muL)/rhoL)*Real.sqrt ((lamR + 2*muR)/rhoR))/((lamR + 2*muR)*Real.sqrt ((lamL + 2*muL)/rhoL) + (lamL + 2*muL)*Real.sqrt ((lamR + 2*muR)/rhoR))),
    0,
    0,
    0,
    0,
    0,
    (-lamL - 2*muL)*(1 + ((-lamR - 2*muR)*Real.sqrt ((lamL + 2*muL)/rhoL))/((lamR + 2*muR)*Real.sqrt ((lamL + 2*muL)/rhoL) + (lamL + 2*muL)*Real.sqrt ((lamR + 2*muR)/rhoR))),
    0,
    0;
  (lamL*Real.sqrt ((lamL + 2*muL)/rhoL)*Real.sqrt ((lamR + 2*muR)/rhoR))/((lamR + 2*muR)*Real.sqrt ((lamL + 2*muL)/rhoL) + (lamL + 2*muL)*Real.sqrt ((lamR + 2*muR)/rhoR)),
    0,
    0,
    0,
    0,
    0,
    -(lamL*(1 + ((-lamR - 2*muR)*Real.sqrt ((lamL + 2*muL)/rhoL))/((lamR + 2*muR)*Real.sqrt ((lamL + 2*muL)/rhoL) + (lamL + 2*muL)*Real.sqrt ((lamR + 2*muR)/rhoR)))),
    0,
    0;
  (lamL*Real.sqrt ((lamL + 2*muL)/rhoL)*Real.sqrt ((lamR + 2*muR)/rhoR))/((lamR + 2*muR)*Real.sqrt ((lamL + 2*muL)/rhoL) + (lamL + 2*muL)*Real.sqrt ((lamR + 2*muR)/rhoR)),
    0,
    0,
    0,
    0,
    0,
    -(lamL*(1 + ((-lamR - 2*muR)*Real.sqrt ((lamL + 2*muL)/rhoL))/((lamR + 2*muR)*Real.sqrt ((lamL + 2*muL)/rhoL) + (lamL + 2*muL)*Real.sqrt ((lamR + 2*muR)/rhoR)))),
    0,
    0;
  0,
    0,
    0,
    (muL*Real.sqrt (muL/rhoL)*Real.sqrt (muR/rhoR))/(muR*Real.sqrt (muL/rhoL) + muL*Real.sqrt (muR/rhoR)),
    0,
    0,
    0,
    -((((muL)^2)*Real.sqrt (muR/rhoR))/(muR*Real.sqrt (muL/rhoL) + muL*Real.sqrt (muR/rhoR))),
    0;
  0, 0, 0, 0, 0, 0, 0, 0, 0;
  0,
    0,
    0,
    0,
    0,
    (muL*Real.sqrt (muL/rhoL)*Real.sqrt (muR/rhoR))/(muR*Real.sqrt (muL/rhoL) + muL*Real.sqrt (muR/rhoR)),
    0,
    0,
    -((((muL)^2)*Real.sqrt (muR/rhoR))/(muR*Real.sqrt (muL/rhoL) + muL*Real.sqrt (muR/rhoR)));
  -((1 - ((lamL + 2*muL)*Real.sqrt ((lamR + 2*muR)/rhoR))/((lamR + 2*muR)*Real.sqrt ((lamL + 2*muL)/rhoL) + (lamL + 2*muL)*Real.sqrt ((lamR + 2*muR)/rhoR)))/rhoL),
    0,
    0,
    0,
    0,
    0,
    -(((lamL + 2*muL)*(-lamR - 2*muR))/(rhoL*((lamR + 2*muR)*Real.sqrt ((lamL + 2*muL)/rhoL) + (lamL + 2*muL)*Real.sqrt ((lamR + 2*muR)/rhoR)))),
    0,
    0;
  0,
    0,
    0,
    -((muR*Real.sqrt (muL/rhoL))/(muR*Real.sqrt (muL/rhoL)*rhoL + muL*rhoL*Real.sqrt (muR/rhoR))),
    0,
    0,
    0,
    (muL*muR)/(muR*Real.sqrt (muL/rhoL)*rhoL + muL*rhoL*Real.sqrt (muR/rhoR)),
    0;
  0,
    0,
    0,
    0,
    0,
    -((muR*Real.sqrt (muL/rhoL))/(muR*Real.sqrt (muL/rhoL)*rhoL + muL*rhoL*Real.sqrt (muR/rhoR))),
    0,
    0,
    (muL*muR)/(muR*Real.sqrt (muL/rhoL)*rhoL + muL*rhoL*Real.sqrt (muR/rhoR))]

/-- Right contribution to the Riemann solution in the face-aligned frame (src/impl/seismic/generated/FrMid3D.inc:24-104). -/
noncomputable def frMid3raw (rhoL rhoR lamL lamR muL muR : ℝ) : Matrix (Fin 9) (Fin 9) ℝ := !![
  ((-lamL - 2*muL)*Real.sqrt ((lamL + 2*muL)/rhoL)*Real.sqrt ((lamR + 2*muR)/rhoR))/((lamR + 2*muR)*Real.sqrt ((lamL + 2*muL)/rhoL) + (lamL + 2*muL)*Real.sqrt ((lamR + 2*muR)/rhoR)),
    0,
    0,
    0,
    0,
    0,
    -(((-lamL - 2*muL)*(-lamR - 2*muR)*Real.sqrt ((lamL + 2*muL)/rhoL))/((lamR + 2*muR)*Real.sqrt ((lamL + 2*muL)/rhoL) + (lamL + 2*muL)*Real.sqrt ((lamR + 2*muR)/rhoR))),
    0,
    0;
  -((lamL*Real.sqrt ((lamL + 2*muL)/rhoL)*Real.sqrt ((lamR + 2*muR)/rhoR))/((lamR + 2*muR)*Real.sqrt ((lamL + 2*muL)/rhoL) + (lamL + 2*muL)*Real.sqrt ((lamR + 2*muR)/rhoR))),
    0,
    0,
    0,
    0,
    0,
    (lamL*(-lamR - 2*muR)*Real.sqrt ((lamL + 2*muL)/rhoL))/((lamR + 2*muR)*Real.sqrt ((lamL + 2*muL)/rhoL) + (lamL + 2*muL)*Real.sqrt ((lamR + 2*muR)/rhoR)),
    0,
    0;
  -((lamL*Real.sqrt ((lamL + 2*muL)/rhoL)*Real.sqrt ((lamR + 2*muR)/rhoR))/((lamR + 2*muR)*Real.sqrt ((lamL + 2*muL)/rhoL) + (lamL + 2*muL)*Real.sqrt ((lamR + 2*muR)/rhoR))),
    0,
    0,
    0,
    0,
    0,
    (lamL*(-lamR - 2*muR)*Real.sqrt ((lamL + 2*muL)/rhoL))/((lamR + 2*muR)*Real.sqrt ((lamL + 2*muL)/rhoL) + (lamL + 2*muL)*Real.sqrt ((lamR + 2*muR)/rhoR)),
    0,
    0;
  0,
    0,
    0,
    -((muL*Real.sqrt (muL/rhoL)*Real.sqrt (muR/rhoR))/(muR*Real.sqrt (muL/rhoL) + muL*Real.sqrt (muR/rhoR))),
    0,
    0,
    0,
    -((muL*muR*Real.sqrt (muL/rhoL))/(muR*Real.sqrt (muL/rhoL) + muL*Real.sqrt (muR/rhoR))),
    0;
  0, 0, 0, 0, 0, 0, 0, 0, 0;
  0,
    0,
    0,
    0,
    0,
    -((muL*Real.sqrt (muL/rhoL)*Real.sqrt (muR/rhoR))/(muR*Real.sqrt (muL/rhoL) + muL*Real.sqrt (muR/rhoR))),
    0,
    0,
    -((muL*muR*Real.sqrt (muL/rhoL))/(muR*Real.sqrt (muL/rhoL) + muL*Real.sqrt (muR/rhoR)));
  -(((lamL + 2*muL)*Real.sqrt ((lamR + 2*muR)/rhoR))/(rhoL*((lamR + 2*muR)*Real.sqrt ((lamL + 2*muL)/rhoL) + (lamL + 2*muL)*Real.sqrt ((lamR + 2*muR)/rhoR)))),
    0,
    0,
    0,
    0,
    0,
    ((lamL + 2*muL)*(-lamR - 2*muR))/(rhoL*((lamR + 2*muR)*Real.sqrt ((lamL + 2*muL)/rhoL) + (lamL + 2*muL)*Real.sqrt ((lamR + 2*muR)/rhoR))),
    0,
    0;
  0,
    0,
    0,
    -((muL*Real.sqrt (muR/rhoR))/(muR*Real.sqrt (muL/rhoL)*rhoL + muL*rhoL*Real.sqrt (muR/rhoR))),
    0,
    0,
    0,
    -((muL*muR)/(muR*Real.sqrt (muL/rhoL)*rhoL + muL*rhoL*Real.sqrt (muR/rhoR))),
    0;
  0,
    0,
    0,
    0,
    0,
    -((muL*Real.sqrt (muR/rhoR))/(muR*Real.sqrt (muL/rhoL)*rhoL + muL*rhoL*Real.sqrt (muR/rhoR))),
    0,
    0,
    -((muL*muR)/(muR*Real.sqrt (muL/rhoL)*rhoL + muL*rhoL*Real.sqrt (muR/rhoR)))]

/-- Jump from the left state to the middle state (src/impl/seismic/generated/MiddleStateJumpL2D.inc:23-47). -/
noncomputable def msJumpL2 (rhoL rhoR lamL lamR muL muR : ℝ) : Matrix (Fin 5) (Fin 5) ℝ := !![
  ((lamL + 2*muL)*Real.sqrt ((lamR + 2*muR)/rhoR))/(lamR*Real.sqrt ((lamL + 2*muL)/rhoL) + 2*muR*Real.sqrt ((lamL + 2*muL)/rhoL) + (lamL + 2*muL)*Real.sqrt ((lamR + 2*muR)/rhoR)),
    0,
    0,
    ((lamL + 2*muL)*(lamR + 2*muR))/(lamR*Real.sqrt ((lamL + 2*muL)/rhoL) + 2*muR*Real.sqrt ((lamL + 2*muL)/rhoL) + (lamL + 2*muL)*Real.sqrt ((lamR + 2*muR)/rhoR)),
    0;
  (lamL*Real.sqrt ((lamR + 2*muR)/rhoR))/(lamR*Real.sqrt ((lamL + 2*muL)/rhoL) + 2*muR*Real.sqrt ((lamL + 2*muL)/rhoL) + (lamL + 2*muL)*Real.sqrt ((lamR + 2*muR)/rhoR)),
    0,
    0,
    (lamL*(lamR + 2*muR))/(lamR*Real.sqrt ((lamL + 2*muL)/rhoL) + 2*muR*Real.sqrt ((lamL + 2*muL)/rhoL) + (lamL + 2*muL)*Real.sqrt ((lamR + 2*muR)/rhoR)),
    0;
  0,
    0,
    (muL*Real.sqrt (muR/rhoR))/(muR*Real.sqrt (muL/rhoL) + muL*Real.sqrt (muR/rhoR)),
    0,
    (muL*muR)/(muR*Real.sqrt (muL/rhoL) + muL*Real.sqrt (muR/rhoR));
  (Real.sqrt ((lamL + 2*muL)/rhoL)*Real.sqrt ((lamR + 2*muR)/rhoR))/(lamR*Real.sqrt ((lamL + 2*muL)/rhoL) + 2*muR*Real.sqrt ((lamL + 2*muL)/rhoL) + (lamL + 2*muL)*Real.sqrt ((lamR + 2*muR)/rhoR)),
    0,
    0,
    ((lamR + 2*muR)*Real.sqrt ((lamL + 2*muL)/rhoL))/(lamR*Real.sqrt ((lamL + 2*muL)/rhoL) + 2*muR*Real.sqrt ((lamL + 2*muL)/rhoL) + (lamL + 2*muL)*Real.sqrt ((lamR + 2*muR)/rhoR)),
    0;
  0,
    0,
    (Real.sqrt (muL/rhoL)*Real.sqrt (muR/rhoR))/(muR*Real.sqrt (muL/rhoL) + muL*Real.sqrt (muR/rhoR)),
    0,
    (muR*Real.sqrt (muL/rhoL))/(muR*Real.sqrt (muL/rhoL) + muL*Real.sqrt (muR/rhoR))]

/-- Jump from the right state to the middle state (src/impl/seismic/generated/MiddleStateJumpR2D.inc:23-47). -/
noncomputable def msJumpR2 (rhoL rhoR lamL lamR muL muR : ℝ) : Matrix (Fin 5) (Fin 5) ℝ := !![
  -(((lamR + 2*muR)*Real.sqrt ((lamL + 2*muL)/rhoL))/(lamR*Real.sqrt ((lamL + 2*muL)/rhoL) + 2*muR*Real.sqrt ((lamL + 2*muL)/rhoL) + (lamL + 2*muL)*Real.sqrt ((lamR + 2*muR)/rhoR))),
    0,
    0,
    ((lamL + 2*muL)*(lamR + 2*muR))/(lamR*Real.sqrt ((lamL + 2*muL)/rhoL) + 2*muR*Real.sqrt ((lamL + 2*muL)/rhoL) + (lamL + 2*muL)*Real.sqrt ((lamR + 2*muR)/rhoR)),
    0;
  -((lamR*Real.sqrt ((lamL + 2*muL)/rhoL))/(lamR*Real.sqrt ((lamL + 2*muL)/rhoL) + 2*muR*Real.sqrt ((lamL + 2*muL)/rhoL) + (lamL + 2*muL)*Real.sqrt ((lamR + 2*muR)/rhoR))),
    0,
    0,
    (lamR*(lamL + 2*muL))/(lamR*Real.sqrt ((lamL + 2*muL)/rhoL) + 2*muR*Real.sqrt ((lamL + 2*muL)/rhoL) + (lamL + 2*muL)*Real.sqrt ((lamR + 2*muR)/rhoR)),
    0;
  0,
    0,
    -((muR*Real.sqrt (muL/rhoL))/(muR*Real.sqrt (muL/rhoL) + muL*Real.sqrt (muR/rhoR))),
    0,
    (muL*muR)/(muR*Real.sqrt (muL/rhoL) + muL*Real.sqrt (muR/rhoR));
  (Real.sqrt ((lamL + 2*muL)/rhoL)*Real.sqrt ((lamR + 2*muR)/rhoR))/(lamR*Real.sqrt ((lamL + 2*muL)/rhoL) + 2*muR*Real.sqrt ((lamL + 2*muL)/rhoL) + (lamL + 2*muL)*Real.sqrt ((lamR + 2*muR)/rhoR)),
    0,
    0,
    -(((lamL + 2*muL)*Real.sqrt ((lamR + 2*muR)/rhoR))/(lamR*Real.sqrt ((lamL + 2*muL)/rhoL) + 2*muR*Real.sqrt ((lamL + 2*muL)/rhoL) + (lamL + 2*muL)*Real.sqrt ((lamR + 2*muR)/rhoR))),
    0;
  0,
    0,
    (Real.sqrt (muL/rhoL)*Real.sqrt (muR/rhoR))/(muR*Real.sqrt (muL/rhoL) + muL*Real.sqrt (muR/rhoR)),
    0,
    -((muL*Real.sqrt (muR/rhoR))/(muR*Real.sqrt (muL/rhoL) + muL*Real.sqrt (muR/rhoR)))]

/-- Jump from the left state to the middle state (src/impl/seismic/generated/MiddleStateJumpL3D.inc:23-103). -/
noncomputable def msJumpL3 (rhoL rhoR lamL lamR muL muR : ℝ) : Matrix (Fin 9) (Fin 9) ℝ := !![
  ((lamL + 2*muL)*Real.sqrt ((lamR + 2*muR)/rhoR))/((lamR + 2*muR)*Real.sqrt ((lamL + 2*muL)/rhoL) + (lamL + 2*muL)*Real.sqrt ((lamR + 2*muR)/rhoR)),
    0,
    0,
    0,
    0,
    0,
    -(((lamL + 2*muL)*(-lamR - 2*muR))/((lamR + 2*muR)*Real.sqrt ((lamL + 2*muL)/rhoL) + (lamL + 2*muL)*Real.sqrt ((lamR + 2*muR)/rhoR))),
    0,
    0;
  (lamL*Real.sqrt ((lamR + 2*muR)/rhoR))/((lamR + 2*muR)*Real.sqrt ((lamL + 2*muL)/rhoL) + (lamL + 2*muL)*Real.sqrt ((lamR + 2*muR)/rhoR)),
    0,
    0,
    0,
    0,
    0,
    -((lamL*(-lamR - 2*muR))/((lamR + 2*muR)*Real.sqrt ((lamL + 2*muL)/rhoL) + (lamL + 2*muL)*Real.sqrt ((lamR + 2*muR)/rhoR))),
    0,
    0;
  (lamL*Real.sqrt ((lamR + 2*muR)/rhoR))/((lamR + 2*muR)*Real.sqrt ((lamL + 2*muL)/rhoL) + (lamL + 2*muL)*Real.sqrt ((lamR + 2*muR)/rhoR)),
    0,
    0,
    0,
    0,
    0,
    -((lamL*(-lamR - 2*muR))/((lamR + 2*muR)*Real.sqrt ((lamL + 2*muL)/rhoL) + (lamL + 2*muL)*Real.sqrt ((lamR + 2*muR)/rhoR))),
    0,
    0;
  0,
    0,
    0,
    (muL*Real.sqrt (muR/rhoR))/(muR*Real.sqrt (muL/rhoL) + muL*Real.sqrt (muR/rhoR)),
    0,
    0,
    0,
    (muL*muR)/(muR*Real.sqrt (muL/rhoL) + muL*Real.sqrt (muR/rhoR)),
    0;
  0, 0, 0, 0, 0, 0, 0, 0, 0;
  0,
    0,
    0,
    0,
    0,
    (muL*Real.sqrt (muR/rhoR))/(muR*Real.sqrt (muL/rhoL) + muL*Real.sqrt (muR/rhoR)),
    0,
    0,
    (muL*muR)/(muR*Real.sqrt (muL/rhoL) + muL*Real.sqrt (muR/rhoR));
  (Real.sqrt ((lamL + 2*muL)/rhoL)*Real.sqrt ((lamR + 2*muR)/rhoR))/((lamR + 2*muR)*Real.sqrt ((lamL + 2*muL)/rhoL) + (lamL + 2*muL)*Real.sqrt ((lamR + 2*muR)/rhoR)),
    0,
    0,
    0,
    0,
    0,
    -(((-lamR - 2*muR)*Real.sqrt ((lamL + 2*muL)/rhoL))/((lamR + 2*muR)*Real.sqrt ((lamL + 2*muL)/rhoL) + (lamL + 2*muL)*Real.sqrt ((lamR + 2*muR)/rhoR))),
    0,
    0;
  0,
    0,
    0,
    (Real.sqrt (muL/rhoL)*Real.sqrt (muR/rhoR))/(muR*Real.sqrt (muL/rhoL) + muL*Real.sqrt (muR/rhoR)),
    0,
    0,
    0,
    (muR*Real.sqrt (muL/rhoL))/(muR*Real.sqrt (muL/rhoL) + muL*Real.sqrt (muR/rhoR)),
    0;
  0,
    0,
    0,
    0,
    0,
    (Real.sqrt (muL/rhoL)*Real.sqrt (muR/rhoR))/(muR*Real.sqrt (muL/rhoL) + muL*Real.sqrt (muR/rhoR)),
    0,
    0,
    (muR*Real.sqrt (muL/rhoL))/(muR*Real.sqrt (muL/rhoL) + muL*Real.sqrt (muR/rhoR))]

/-- Jump from the right state to the middle state (src/impl/seismic/generated/MiddleStateJumpR3D.inc:23-103). -/
noncomputable def msJumpR3 (rhoL rhoR lamL lamR muL muR : ℝ) : Matrix (Fin 9) (Fin 9) ℝ := !![
  -(((lamR + 2*muR)*Real.sqrt ((lamL + 2*muL)/rhoL))/((lamR + 2*muR)*Real.sqrt ((lamL + 2*muL)/rhoL) + (lamL + 2*muL)*Real.sqrt ((lamR + 2*muR)/rhoR))),
    0,
    0,
    0,
    0,
    0,
    ((lamL + 2*muL)*(lamR + 2*muR))/((lamR + 2*muR)*Real.sqrt ((lamL + 2*muL)/rhoL) + (lamL + 2*muL)*Real.sqrt ((lamR + 2*muR)/rhoR)),
    0,
    0;
  -((lamR*Real.sqrt ((lamL + 2*muL)/rhoL))/((lamR + 2*muR)*Real.sqrt ((lamL + 2*muL)/rhoL) + (lamL + 2*muL)*Real.sqrt ((lamR + 2*muR)/rhoR))),
    0,
    0,
    0,
    0,
    0,
    (lamR*(lamL + 2*muL))/((lamR + 2*muR)*Real.sqrt ((lamL + 2*muL)/rhoL) + (lamL + 2*muL)*Real.sqrt ((lamR + 2*muR)/rhoR)),
    0,
    0;
  -((lamR*Real.sqrt ((lamL + 2*muL)/rhoL))/((lamR + 2*muR)*Real.sqrt ((lamL + 2*muL)/rhoL) + (lamL + 2*muL)*Real.sqrt ((lamR + 2*muR)/rhoR))),
    0,
    0,
    0,
    0,
    0,
    (lamR*(lamL + 2*muL))/((lamR + 2*muR)*Real.sqrt ((lamL + 2*muL)/rhoL) + (lamL + 2*muL)*Real.sqrt ((lamR + 2*muR)/rhoR)),
    0,
    0;
  0,
    0,
    0,
    -((muR*Real.sqrt (muL/rhoL))/(muR*Real.sqrt (muL/rhoL) + muL*Real.sqrt (muR/rhoR))),
    0,
    0,
    0,
    (muL*muR)/(muR*Real.sqrt (muL/rhoL) + muL*Real.sqrt (muR/rhoR)),
    0;
  0, 0, 0, 0, 0, 0, 0, 0, 0;
  0,
    0,
    0,
    0,
    0,
    -((muR*Real.sqrt (muL/rhoL))/(muR*Real.sqrt (muL/rhoL) + muL*Real.sqrt (muR/rhoR))),
    0,
    0,
    (muL*muR)/(muR*Real.sqrt (muL/rhoL) + muL*Real.sqrt (muR/rhoR));
  (Real.sqrt ((lamL + 2*muL)/rhoL)*Real.sqrt ((lamR + 2*muR)/rhoR))/((lamR + 2*muR)*Real.sqrt ((lamL + 2*muL)/rhoL) + (lamL + 2*muL)*Real.sqrt ((lamR + 2*muR)/rhoR)),
    0,
    0,
    0,
    0,
    0,
    -(((lamL + 2*muL)*Real.sqrt ((lamR + 2*muR)/rhoR))/((lamR + 2*muR)*Real.sqrt ((lamL + 2*muL)/rhoL) + (lamL + 2*muL)*Real.sqrt ((lamR + 2*muR)/rhoR))),
    0,
    0;
  0,
    0,
    0,
    (Real.sqrt (muL/rhoL)*Real.sqrt (muR/rhoR))/(muR*Real.sqrt (muL/rhoL) + muL*Real.sqrt (muR/rhoR)),
    0,
    0,
    0,
    -((muL*Real.sqrt (muR/rhoR))/(muR*Real.sqrt (muL/rhoL) + muL*Real.sqrt (muR/rhoR))),
    0;
  0,
    0,
    0,
    0,
    0,
    (Real.sqrt (muL/rhoL)*Real.sqrt (muR/rhoR))/(muR*Real.sqrt (muL/rhoL) + muL*Real.sqrt (muR/rhoR)),
    0,
    0,
    -((muL*Real.sqrt (muR/rhoR))/(muR*Real.sqrt (muL/rhoL) + muL*Real.sqrt (muR/rhoR)))]

/-- Flux of a middle state, rotated to the physical frame (src/impl/seismic/generated/MiddleStateFlux2D.inc:23-47). -/
def msFlux2 (nx ny rho lam mu : K) : Matrix (Fin 5) (Fin 5) K := !![
  0,
    0,
    0,
    -lam + 2*mu*(-1 + ((ny)^2)),
    2*mu*nx*ny;
  0, 0, 0, -lam - 2*mu*((ny)^2), -2*mu*nx*ny;
  0, 0, 0, -2*mu*nx*ny, mu*(-1 + 2*((ny)^2));
  -(nx/rho), 0, ny/rho, 0, 0;
  -(ny/rho), 0, -(nx/rho), 0, 0]

/-- Flux of a middle state, rotated to the physical frame (src/impl/seismic/generated/MiddleStateFlux3D.inc:23-103). -/
def msFlux3 (nx ny nz sx sy sz tx ty tz rho lam mu : K) : Matrix (Fin 9) (Fin 9) K := !![
  0,
    0,
    0,
    0,
    0,
    0,
    -2*mu*((nx)^2) - lam*(((nx)^2) + ((sx)^2) + ((tx)^2)),
    -2*mu*nx*sx,
    -2*mu*nx*tx;
  0,
    0,
    0,
    0,
    0,
    0,
    -2*mu*((ny)^2) - lam*(((ny)^2) + ((sy)^2) + ((ty)^2)),
    -2*mu*ny*sy,
    -2*mu*ny*ty;
  0,
    0,
    0,
    0,
    0,
    0,
    -2*mu*((nz)^2) - lam*(((nz)^2) + ((sz)^2) + ((tz)^2)),
    -2*mu*nz*sz,
    -2*mu*nz*tz;
  0,
    0,
    0,
    0,
    0,
    0,
    -2*mu*nx*ny - lam*(nx*ny + sx*sy + tx*ty),
    -(mu*(ny*sx + nx*sy)),
    -(mu*(ny*tx + nx*ty));
  0,
    0,
    0,
    0,
    0,
    0,
    -2*mu*ny*nz - lam*(ny*nz + sy*sz + ty*tz),
    -(mu*(nz*sy + ny*sz)),
    -(mu*(nz*ty + ny*tz));
  0,
    0,
    0,
    0,
    0,
    0,
    -2*mu*nx*nz - lam*(nx*nz + sx*sz + tx*tz),
    -(mu*(nz*sx + nx*sz)),
    -(mu*(nz*tx + nx*tz));
  -(nx/rho), 0, 0, -(sx/rho), 0, -(tx/rho), 0, 0, 0;
  -(ny/rho), 0, 0, -(sy/rho), 0, -(ty/rho), 0, 0, 0;
  -(nz/rho), 0, 0, -(sz/rho), 0, -(tz/rho), 0, 0, 0]

end
end Edge.Seismic
