import Verif.Model.Cxx
/-
Model of /repo/utils/createGrids2D.cpp and of `SgTripolarGrid_type` (/repo/cpp/SgTripolarGrid.h).
The scalar type is any type with the arithmetic and trigonometric operations, no laws assumed.
Node counts are natural numbers here; `Model/GridsRaw` has the functions with `int` counts, negative ones included.  The caller's arrays are lists; a write past the end is undefined behaviour.
-/
namespace Sg.Grids

/-- The functions of `<cmath>` used by the grid generators. -/
class Trig (F : Type) where
  pi : F
  sin : F → F
  cos : F → F
  tan : F → F
  asin : F → F
  acos : F → F
  atan : F → F
  atan2 : F → F → F
open Trig

variable {F : Type} [Add F] [Sub F] [Mul F] [Div F] [Neg F] [NatCast F] [IntCast F]

/-- The two nested loops common to the three generators: node `(i,j)` is written at the running index
(createGrids2D.cpp:34-41, 52-61, 99-122). -/
def fillNodes (n0 n1 : Nat) (f : Nat → Nat → F × F) (c : List F × List F) : Cxx (List F × List F) := do
  let r ← forN n0 (c, 0) fun i s => forN n1 s fun j (s : (List F × List F) × Nat) => do
    let a ← vset s.1.1 s.2 (f i j).1
    let b ← vset s.1.2 s.2 (f i j).2
    .ok ((a, b), s.2 + 1)
  .ok r.1

/-- `createRectangularGrid` (createGrids2D.cpp:27-42). -/
def createRectangularGrid (n0 n1 : Nat) (xmins xmaxs : F × F) (c : List F × List F) : Cxx (List F × List F) :=
  let d0 := (xmaxs.1 - xmins.1) / (((n0 : Int) - 1 : Int) : F)
  let d1 := (xmaxs.2 - xmins.2) / (((n1 : Int) - 1 : Int) : F)
  fillNodes n0 n1 (fun i j => (xmins.1 + d0 * (i : F), xmins.2 + d1 * (j : F))) c

/-- `createPolarGrid` (createGrids2D.cpp:45-62). -/
def createPolarGrid [Trig F] (n0 n1 : Nat) (center : F × F) (radius : F) (c : List F × List F) : Cxx (List F × List F) :=
  let d0 := radius / (((n0 : Int) - 1 : Int) : F)
  let d1 := ((2 : Nat) : F) * pi / (((n1 : Int) - 1 : Int) : F)
  fillNodes n0 n1 (fun i j =>
    let rho := center.1 + d0 * (i : F)
    let the := center.2 + d1 * (j : F)
    (rho * cos the, rho * sin the)) c

/-- `matrixDotMatrix` (createGrids2D.cpp:4-14); entry `k = 3 i + j` of the result. -/
def matrixDotMatrix (m1 m2 : Nat → F) (k : Nat) : F :=
  let i := k / 3
  let j := k % 3
  (((0 : Nat) : F) + m1 (i * 3 + 0) * m2 (0 * 3 + j)) + m1 (i * 3 + 1) * m2 (1 * 3 + j) + m1 (i * 3 + 2) * m2 (2 * 3 + j)

/-- `matrixDotVector` (createGrids2D.cpp:17-24). -/
def matrixDotVector (m : Nat → F) (v : Nat → F) (i : Nat) : F :=
  (((0 : Nat) : F) + m (i * 3 + 0) * v 0) + m (i * 3 + 1) * v 1 + m (i * 3 + 2) * v 2

/-- An array literal. -/
def arr (l : List F) (k : Nat) : F := l.getD k ((0 : Nat) : F)

/-- Total rotation of `createRotatedPoleGrid` (createGrids2D.cpp:70-91). -/
def rotMatrix [Trig F] (delta_lat delta_lon : F) : Nat → F :=
  let alpha := pi * delta_lat / ((180 : Nat) : F)
  let beta := pi * delta_lon / ((180 : Nat) : F)
  let z : F := ((0 : Nat) : F)
  let o : F := ((1 : Nat) : F)
  let rot_alp := arr [cos alpha, z, sin alpha, z, o, z, -sin alpha, z, cos alpha]
  let rot_bet := arr [cos beta, sin beta, z, -sin beta, cos beta, z, z, z, o]
  matrixDotMatrix rot_bet rot_alp

/-- Unrotated latitude, in degrees, of row `j` (createGrids2D.cpp:101). -/
def rowLat (nj j : Nat) : F := -((90 : Nat) : F) + ((180 : Nat) : F) * (j : F) / (((nj : Int) - 1 : Int) : F)
/-- Unrotated longitude, in degrees, of column `i` (createGrids2D.cpp:107). -/
def colLon (ni i : Nat) : F := -((180 : Nat) : F) + ((360 : Nat) : F) * (i : F) / (((ni : Int) - 1 : Int) : F)

/-- Rotated unit vector of node `(j,i)` (createGrids2D.cpp:101-116). -/
def rotatedPoint [Trig F] (nj ni : Nat) (delta_lat delta_lon : F) (j i : Nat) : Nat → F :=
  let the := pi * rowLat nj j / ((180 : Nat) : F)
  let lam := pi * colLon ni i / ((180 : Nat) : F)
  let rho := cos the
  matrixDotVector (rotMatrix delta_lat delta_lon) (arr [rho * cos lam, rho * sin lam, sin the])

/-- `createRotatedPoleGrid` (createGrids2D.cpp:65-123). -/
def createRotatedPoleGrid [Trig F] (nj ni : Nat) (delta_lat delta_lon : F) (c : List F × List F) :
    Cxx (List F × List F) :=
  fillNodes nj ni (fun j i =>
    let xyz := rotatedPoint nj ni delta_lat delta_lon j i
    (((180 : Nat) : F) * asin (xyz 2) / pi, ((180 : Nat) : F) * atan2 (xyz 1) (xyz 0) / pi)) c

/-! ### Tripolar grid -/

/-- Data members (SgTripolarGrid.h:15-26). -/
structure Tripolar (F : Type) where
  dims0 : Nat
  dims1 : Nat
  capLatIndex : Int
  lats : List F
  lons : List F

/-- Constructor (SgTripolarGrid.h:33-42): the product is computed in `int`, `front()` needs a non empty
vector. -/
def Tripolar.new (dims0 dims1 : Nat) (capLatIndex : Int) : Cxx (Tripolar F) := do
  let ntot ← imul dims0 dims1
  if ntot = 0 then .error .outOfBounds
  else
    let z : List F := List.replicate ntot.toNat ((0 : Nat) : F)
    .ok { dims0 := dims0, dims1 := dims1, capLatIndex := capLatIndex, lats := z, lons := z }

/-- `v[k] = x; v[k] *= s` with a signed index. -/
def putScaled (v : List F) (k : Int) (x s : F) : Cxx (List F) :=
  if 0 ≤ k then vset v k.toNat (x * s) else .error .outOfBounds

/-- Unscaled longitude and latitude of a node below the cap (SgTripolarGrid.h:71-72). -/
def lowerNode [Trig F] (d0 d1 : Nat) (i : Nat) (j : Int) : F × F :=
  let di := ((2 : Nat) : F) * pi / (((d0 : Int) - 1 : Int) : F)
  let dj := pi / (((d1 : Int) - 1 : Int) : F)
  let half : F := ((1 : Nat) : F) / ((2 : Nat) : F)
  (-pi + (i : F) * di, -half * pi + (j : F) * dj)

/-- Unscaled longitude and latitude for given `pc`, `elc` (SgTripolarGrid.h:88-90, 103-105). -/
def capCoords [Trig F] (d1 : Nat) (cap : Int) (pc elc : F) : F × F :=
  let half : F := ((1 : Nat) : F) / ((2 : Nat) : F)
  let two : F := ((2 : Nat) : F)
  let dj := pi / (((d1 : Int) - 1 : Int) : F)
  let latPerim := pi - (cap : F) * dj
  (((0 : Nat) : F) - atan2 (sin elc) (tan pc),
   half * pi - two * atan (tan (latPerim / two) * tan (half * acos (cos elc * cos pc))))

/-- Unscaled coordinates of a cap node (SgTripolarGrid.h:79-90, first half of the columns). -/
def capNodeWest [Trig F] (d0 d1 : Nat) (cap : Int) (i : Nat) (j : Int) : F × F :=
  let half : F := ((1 : Nat) : F) / ((2 : Nat) : F)
  let di := ((2 : Nat) : F) * pi / (((d0 : Int) - 1 : Int) : F)
  let dj := (half * pi) / (((d1 : Int) - cap - 1 : Int) : F)
  capCoords d1 cap (-(pi / ((2 : Nat) : F)) + (i : F) * di) (pi / ((2 : Nat) : F) - ((j - cap : Int) : F) * dj)

/-- Unscaled coordinates of a cap node (SgTripolarGrid.h:97-105, second half of the columns). -/
def capNodeEast [Trig F] (d0 d1 : Nat) (cap : Int) (i : Nat) (j : Int) : F × F :=
  let half : F := ((1 : Nat) : F) / ((2 : Nat) : F)
  let di := ((2 : Nat) : F) * pi / (((d0 : Int) - 1 : Int) : F)
  let dj := (half * pi) / (((d1 : Int) - cap - 1 : Int) : F)
  let shrink : F := ((1 : Nat) : F) - ((1 : Nat) : F) / ((10000000000 : Nat) : F)
  capCoords d1 cap (-(pi / ((2 : Nat) : F)) + (((d0 : Int) - i - 1 : Int) : F) * di)
    (-(pi / ((2 : Nat) : F)) + shrink * ((j - cap : Int) : F) * dj)

/-- Write one node (the four statements of each loop body). -/
def writeNode [Trig F] (d0 : Nat) (g : Nat → Int → F × F) (i : Nat) (j : Int) (s : List F × List F) :
    Cxx (List F × List F) := do
  let k : Int := i + j * d0
  let sc : F := ((180 : Nat) : F) / pi
  let lons ← putScaled s.1 k (g i j).1 sc
  let lats ← putScaled s.2 k (g i j).2 sc
  .ok (lons, lats)

/-- `getGrid` (SgTripolarGrid.h:55-111): the reported dimensions (swapped) and the filled arrays. -/
def Tripolar.getGrid [Trig F] (t : Tripolar F) : Cxx (Nat × Nat × Tripolar F) := do
  let d1 := t.dims0
  let d0 := t.dims1
  let cap := t.capLatIndex
  let s1 ← forN cap.toNat (t.lons, t.lats) fun j s =>
    forN d0 s fun i s => writeNode d0 (lowerNode d0 d1) i j s
  let s2 ← forN (d1 - cap).toNat s1 fun k s =>
    forN (d0 / 2) s fun i s => writeNode d0 (capNodeWest d0 d1 cap) i (cap + k) s
  let s3 ← forN (d1 - cap).toNat s2 fun k s =>
    forFrom (d0 / 2) (d0 - d0 / 2) s fun i s => writeNode d0 (capNodeEast d0 d1 cap) i (cap + k) s
  .ok (d0, d1, { t with lons := s3.1, lats := s3.2 })

end Sg.Grids
