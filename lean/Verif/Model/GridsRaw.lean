import Verif.Model.Grids
import Verif.Model.FindPointRaw
/-
The grid generators with their arguments as they are passed (/repo/utils/createGrids2D.cpp:27-123, /repo/cpp/SgTripolarGrid.h:33-111):
`int` counts, which may be zero or negative and which the comparisons with a `size_t` turn into huge numbers, and the memory behind the
pointers.  `coords` is the memory behind a `double**`, the arrays of which do not overlap.  The running `index` is not reduced modulo
2^64: it is used as a subscript before it gets there.
-/
namespace Sg.Grids
open Trig Sg.FindPoint

variable {F : Type} [Add F] [Sub F] [Mul F] [Div F] [Neg F] [NatCast F] [IntCast F]

/-- `coords[c][k] = x`. -/
def putAt (coords : List (List F)) (c k : Nat) (x : F) : Cxx (List (List F)) := do
  let v ← vget coords c
  let v ← vset v k x
  vset coords c v

/-- The two nested loops (createGrids2D.cpp:34-41, 52-61, 99-122); `row` is what is computed for a row, `node` computes the pair that
is stored. -/
def fillRaw {ρ : Type} (n0 n1 : Nat) (row : Nat → Cxx ρ) (node : ρ → Nat → Cxx (F × F)) (coords : List (List F)) :
    Cxx (List (List F)) := do
  let r ← forN n0 (coords, 0) fun i s => do
    let q ← row i
    forN n1 s fun j (s : List (List F) × Nat) => do
      let p ← node q j
      let a ← putAt s.1 0 s.2 p.1
      let b ← putAt a 1 s.2 p.2
      .ok (b, s.2 + 1)
  .ok r.1

/-- `createRectangularGrid` (createGrids2D.cpp:27-42). -/
def createRectangularGridR (nodeDims : List Int) (xmins xmaxs : List F) (coords : List (List F)) : Cxx (List (List F)) := do
  let n0 ← vget nodeDims 0
  let n1 ← vget nodeDims 1
  let a0 ← vget xmins 0
  let a1 ← vget xmins 1
  let b0 ← vget xmaxs 0
  let b1 ← vget xmaxs 1
  let m0 ← isub n0 1
  let m1 ← isub n1 1
  let d0 := (b0 - a0) / (m0 : F)
  let d1 := (b1 - a1) / (m1 : F)
  fillRaw (toSize n0) (toSize n1) (fun i => .ok i) (fun i j => .ok (a0 + d0 * (i : F), a1 + d1 * (j : F))) coords

/-- `createPolarGrid` (createGrids2D.cpp:45-62).  `center` is read in the loop. -/
def createPolarGridR [Trig F] (nodeDims : List Int) (center : List F) (radius : F) (coords : List (List F)) :
    Cxx (List (List F)) := do
  let n0 ← vget nodeDims 0
  let n1 ← vget nodeDims 1
  let m0 ← isub n0 1
  let m1 ← isub n1 1
  let d0 := radius / (m0 : F)
  let d1 := ((2 : Nat) : F) * pi / (m1 : F)
  fillRaw (toSize n0) (toSize n1) (fun i => .ok i) (fun i j => do
    let c0 ← vget center 0
    let c1 ← vget center 1
    let rho := c0 + d0 * (i : F)
    let the := c1 + d1 * (j : F)
    .ok (rho * cos the, rho * sin the)) coords

/-- `createRotatedPoleGrid` (createGrids2D.cpp:65-123).  `nj - 1` is computed for every row and `ni - 1` for every node. -/
def createRotatedPoleGridR [Trig F] (nodeDims : List Int) (delta_lat delta_lon : F) (coords : List (List F)) :
    Cxx (List (List F)) := do
  let nj ← vget nodeDims 0
  let ni ← vget nodeDims 1
  fillRaw (toSize nj) (toSize ni) (fun j => do
    let mj ← isub nj 1
    let lat := -((90 : Nat) : F) + ((180 : Nat) : F) * (j : F) / (mj : F)
    .ok (pi * lat / ((180 : Nat) : F))) (fun the i => do
    let mi ← isub ni 1
    let lon := -((180 : Nat) : F) + ((360 : Nat) : F) * (i : F) / (mi : F)
    let lam := pi * lon / ((180 : Nat) : F)
    let rho := cos the
    let xyz := matrixDotVector (rotMatrix delta_lat delta_lon) (arr [rho * cos lam, rho * sin lam, sin the])
    .ok (((180 : Nat) : F) * asin (xyz 2) / pi, ((180 : Nat) : F) * atan2 (xyz 1) (xyz 0) / pi)) coords

/-! ### Tripolar grid -/

/-- Data members (SgTripolarGrid.h:15-26). -/
structure TripolarR (F : Type) where
  dims0 : Int
  dims1 : Int
  capLatIndex : Int
  lats : List F
  lons : List F

/-- Constructor (SgTripolarGrid.h:33-42): the product is computed in `int` and converted to `size_t`; `front()` needs a non empty
vector. -/
def TripolarR.new (dims : List Int) (capLatIndex : Int) : Call' (TripolarR F) := do
  let d0 ← lift' (vget dims 0)
  let d1 ← lift' (vget dims 1)
  let p ← lift' (imul d0 d1)
  let ntot := toSize p
  let lats ← resize ([] : List F) ntot ((0 : Nat) : F)
  let lons ← resize ([] : List F) ntot ((0 : Nat) : F)
  let _ ← lift' (vget lats 0)
  let _ ← lift' (vget lons 0)
  return { dims0 := d0, dims1 := d1, capLatIndex := capLatIndex, lats := lats, lons := lons }

/-- Write one node (the four statements of each loop body): the index `i + j*dims[0]` is computed in `int`. -/
def writeNodeR [Trig F] (d0 : Int) (p : F × F) (i j : Int) (s : List F × List F) : Cxx (List F × List F) := do
  let m ← imul j d0
  let k ← iadd i m
  let sc : F := ((180 : Nat) : F) / pi
  let lons ← putScaled s.1 k p.1 sc
  let lats ← putScaled s.2 k p.2 sc
  .ok (lons, lats)

/-- Unscaled longitude and latitude for given `pc`, `elc` (SgTripolarGrid.h:88-90, 103-105). -/
def capCoordsR [Trig F] (latPerim pc elc : F) : F × F :=
  let half : F := ((1 : Nat) : F) / ((2 : Nat) : F)
  let two : F := ((2 : Nat) : F)
  (((0 : Nat) : F) - atan2 (sin elc) (tan pc),
   half * pi - two * atan (tan (latPerim / two) * tan (half * acos (cos elc * cos pc))))

/-- `getGrid` (SgTripolarGrid.h:55-111): the dimensions stored in the caller's `dims` and the object.  `el0` is `0`; the differences of
loop counters are exact. -/
def TripolarR.getGrid [Trig F] (t : TripolarR F) : Cxx (Int × Int × TripolarR F) := do
  let d1 := t.dims0
  let d0 := t.dims1
  let cap := t.capLatIndex
  let half : F := ((1 : Nat) : F) / ((2 : Nat) : F)
  let two : F := ((2 : Nat) : F)
  let m0 ← isub d0 1
  let m1 ← isub d1 1
  let di := two * pi / (m0 : F)
  let dj := pi / (m1 : F)
  let s1 ← forN cap.toNat (t.lons, t.lats) fun j s =>
    forN d0.toNat s fun i s => writeNodeR d0 (-pi + (i : F) * di, -half * pi + ((j : Int) : F) * dj) i j s
  let latPerim := pi - (cap : F) * dj
  let mc ← isub d1 cap
  let mc ← isub mc 1
  let djc := (half * pi) / (mc : F)
  let s2 ← forN (d1 - cap).toNat s1 fun k s =>
    forN (d0.tdiv 2).toNat s fun i s =>
      writeNodeR d0 (capCoordsR latPerim (-(pi / two) + (i : F) * di) (pi / two - ((cap + k - cap : Int) : F) * djc)) i (cap + k) s
  let shrink : F := ((1 : Nat) : F) - ((1 : Nat) : F) / ((10000000000 : Nat) : F)
  let s3 ← forN (d1 - cap).toNat s2 fun k s =>
    forFrom (d0.tdiv 2).toNat (d0 - d0.tdiv 2).toNat s fun i s =>
      writeNodeR d0 (capCoordsR latPerim (-(pi / two) + ((d0 - i - 1 : Int) : F) * di)
        (-(pi / two) + shrink * ((cap + k - cap : Int) : F) * djc)) i (cap + k) s
  .ok (d0, d1, { t with lons := s3.1, lats := s3.2 })

end Sg.Grids
