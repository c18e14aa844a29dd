import Mathlib.Analysis.Convex.Hull
import Mathlib.Topology.Instances.Real.Lemmas
/-
Affine maps of the plane.
-/
namespace Sg.Spec

/-- The affine map `(x, y) ↦ (a x + b y + e, c x + d y + f)`. -/
structure AffineMap2 where
  a : ℝ
  b : ℝ
  c : ℝ
  d : ℝ
  e : ℝ
  f : ℝ

def AffineMap2.app (φ : AffineMap2) (p : ℝ × ℝ) : ℝ × ℝ := (φ.a * p.1 + φ.b * p.2 + φ.e, φ.c * p.1 + φ.d * p.2 + φ.f)

def AffineMap2.det (φ : AffineMap2) : ℝ := φ.a * φ.d - φ.b * φ.c

/-- Translations, rotations, reflections and what they compose to: the linear part keeps lengths and angles. -/
structure AffineMap2.Rigid (φ : AffineMap2) : Prop where
  col1 : φ.a ^ 2 + φ.c ^ 2 = 1
  col2 : φ.b ^ 2 + φ.d ^ 2 = 1
  orth : φ.a * φ.b + φ.c * φ.d = 0

/-- The arrays `x'`, `y'` hold the images of the nodes in `x`, `y`. -/
def MapsNodes (φ : AffineMap2) (n : Nat) (x y x' y' : List ℝ) : Prop :=
  ∀ k < n, (x'.getD k 0, y'.getD k 0) = φ.app (x.getD k 0, y.getD k 0)

end Sg.Spec
