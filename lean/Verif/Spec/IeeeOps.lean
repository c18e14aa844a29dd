import Verif.Model.FindPoint
import Verif.Spec.Ieee
/-
The functions of `<cmath>` on numbers with infinities and NaN, from those on numbers.
-/
namespace Sg.Ieee
open Sg.FindPoint

variable {K : Type} [Field K] [LinearOrder K] [FOps K]

/-- Conversion of the floor to `int`: undefined for infinities and NaN. -/
def floorI : Ieee K → Option Int
  | fin x => FOps.floorI x
  | _ => none

/-- Square root: NaN for negative numbers. -/
def sqrt : Ieee K → Ieee K
  | nan => nan
  | inf s => if s then nan else inf false
  | fin x => if x < 0 then nan else fin (FOps.sqrt x)

/-- Remainder: NaN for an infinite dividend and for the divisor zero. -/
def fmod : Ieee K → Ieee K → Ieee K
  | nan, _ => nan
  | _, nan => nan
  | inf _, _ => nan
  | fin x, inf _ => fin x
  | fin x, fin y => if y = 0 then nan else fin (FOps.fmod x y)

instance : FOps (Ieee K) where
  floorI := floorI
  sqrt := sqrt
  fmod := fmod
  big := fin FOps.big
  eps100 := fin FOps.eps100

end Sg.Ieee
