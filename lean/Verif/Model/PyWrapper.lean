/-
Model of the Python class `ConserveInterp2D` (/repo/py/conserveInterp2D.py).  A grid is its shape and an
identifier of its coordinates.  The native object is represented by the sequence of native calls made on
it and by which pairs of grids its weights have been computed for; the values of the weights are the
subject of the C++ model.
-/
namespace Sg.Py

/-- A pair of coordinate arrays: shape and contents (an identifier). -/
structure Grid where
  n0 : Nat
  n1 : Nat
  coords : Nat
  deriving DecidableEq, Repr

/-- Calls into the shared library. -/
inductive Native
  | new | setDst (g : Grid) | setSrc (g : Grid) | computeWeights | apply
  deriving DecidableEq, Repr

/-- The Python object: the attributes, the native calls made so far (oldest first) and, as a ghost, the
grids currently held by the native object and those each native weight computation was made for. -/
structure Obj where
  hasSrcCoords : Bool
  hasInterpWeights : Bool
  dstData : Option (Nat × Nat)
  trace : List Native
  curSrc : Option Grid
  curDst : Option Grid
  weightsOf : List (Option Grid × Option Grid)
  deriving DecidableEq, Repr

/-- `__init__` (conserveInterp2D.py:9-18). -/
def init : Obj := ⟨false, false, none, [.new], none, none, []⟩

/-- Methods. -/
inductive Call
  | setDstGrid (g : Grid) | setSrcGrid (g : Grid) | computeWeights | apply
  deriving DecidableEq, Repr

/-- Run a method; the Boolean tells whether it returned (false: `RuntimeError` raised). -/
def call (o : Obj) : Call → Bool × Obj
  /- setDstGrid (conserveInterp2D.py:26-38) -/
  | .setDstGrid g => (true, { o with trace := o.trace ++ [.setDst g], curDst := some g, dstData := some (g.n0 - 1, g.n1 - 1) })
  /- setSrcGrid (conserveInterp2D.py:40-54) -/
  | .setSrcGrid g => (true, { o with trace := o.trace ++ [.setSrc g], curSrc := some g, hasSrcCoords := true })
  /- apply (conserveInterp2D.py:56-68) -/
  | .apply =>
    if !o.hasInterpWeights then (false, o)
    else (true, { o with trace := o.trace ++ [.apply] })
  /- computeWeights (conserveInterp2D.py:70-79) -/
  | .computeWeights =>
    if !o.hasSrcCoords then (false, o)
    else if o.dstData.isNone then (false, o)
    else (true, { o with trace := o.trace ++ [.computeWeights], hasInterpWeights := true, weightsOf := o.weightsOf ++ [(o.curSrc, o.curDst)] })

/-- The object after a sequence of method calls (exceptions are caught by the caller). -/
def run (cs : List Call) : Obj := cs.foldl (fun o c => (call o c).2) init

end Sg.Py
