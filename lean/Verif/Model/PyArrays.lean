import Verif.Model.ConserveInterp
/-
Model of the Python class `ConserveInterp2D` (/repo/py/conserveInterp2D.py) together with the native object it drives and
the numpy arrays it is given.  `Model/PyWrapper` has the same methods without arrays and native object.

A numpy array is a view into a buffer of doubles: first element, shape, strides.  The wrapper hands the address of the first
element to the library (`ctypes.data_as`), which counts from there.  Simplifications: arrays have the type `float64`, two
axes and at least one entry per axis (`numpy.zeros` refuses a negative number of cells); the source data may have any shape
in Python, only the address of its first element is used.  `em` is how the native constructor's use of the end iterator is
treated (see `Model/ConserveInterp`), the other parameters are those of the native model.
-/
namespace Sg.PyNp
open Sg.LinearSolve Sg.Triangulate Sg.QuadIntersect Sg.Conserve

variable {F : Type} [Zero F] [One F] [Add F] [Sub F] [Mul F] [Div F] [Neg F] [LT F] [DecidableLT F] [LE F] [DecidableLE F]
  [NatCast F]

/-- The buffers of numpy arrays. -/
abbrev Buffers (F : Type) := List (List F)

/-- A two-dimensional view: buffer, position of the first element, shape, strides counted in elements. -/
structure Arr where
  buf : Nat
  off : Nat
  n0 : Nat
  n1 : Nat
  s0 : Int
  s1 : Int
  deriving DecidableEq, Repr

/-- What the library sees behind the address of the first element (`data_as`, conserveInterp2D.py:34-35, 51-52): everything
up to the end of the buffer. -/
def behind (m : Buffers F) (a : Arr) : Cxx (List F) := do
  let b ← vget m a.buf
  return b.drop a.off

/-- Reading and writing entry `k` behind the address. -/
def load (m : Buffers F) (a : Arr) (k : Nat) : Cxx F := do
  let b ← vget m a.buf
  vget b (a.off + k)
def store (m : Buffers F) (a : Arr) (k : Nat) (x : F) : Cxx (Buffers F) := do
  let b ← vget m a.buf
  let b ← vset b (a.off + k) x
  vset m a.buf b

/-- The native `apply` (SgConserveInterp2D.h:135-148) on memory that the two arguments may share. -/
def nativeApply (o : Interp F) (src dst : Arr) (m : Buffers F) : Cxx (Buffers F) :=
  o.weights.foldlM (fun m e => do
    let m ← store m dst e.1 0
    e.2.foldlM (fun m p => do
      let v ← load m dst e.1
      let s ← load m src p.1
      store m dst e.1 (v + p.2 * s)) m) m

/-- The Python object (attributes, conserveInterp2D.py:14-18), the native object behind `handle`, and the memory. -/
structure World (F : Type) where
  mem : Buffers F
  handle : Interp F
  hasSrcCoords : Bool
  hasInterpWeights : Bool
  dstData : Option Arr
  deriving DecidableEq

/-- `__init__` (conserveInterp2D.py:9-18). -/
def init (em : EndMode) (mem : Buffers F) : Cxx (World F) := do
  let h ← Conserve.new em
  return { mem := mem, handle := h, hasSrcCoords := false, hasInterpWeights := false, dstData := none }

/-- `numpy.zeros` with a given shape (conserveInterp2D.py:38): a new buffer. -/
def zeros (m : Buffers F) (n0 n1 : Nat) : Buffers F × Arr :=
  (m ++ [List.replicate (n0 * n1) 0], { buf := m.length, off := 0, n0 := n0, n1 := n1, s0 := n1, s1 := 1 })

/-- `a *= 0` for an array that is a whole buffer (conserveInterp2D.py:64). -/
def timesZero (m : Buffers F) (a : Arr) : Cxx (Buffers F) := do
  let b ← vget m a.buf
  vset m a.buf (b.map (· * 0))

/-- How a call ends. -/
inductive Reply
  | returned | array (a : Arr) | raised
  deriving DecidableEq, Repr

/-- What a program does: methods of the object, creating arrays and writing entries of arrays. -/
inductive Stmt (F : Type)
  | setDstGrid (x y : Arr) | setSrcGrid (periodicity : Nat × Nat) (x y : Arr) | computeWeights | apply (srcData : Arr)
  | create (data : List F) | write (buf k : Nat) (v : F)

/-- `setDstGrid` (conserveInterp2D.py:26-38). -/
def World.setDstGrid (w : World F) (x y : Arr) : Cxx (Reply × World F) := do
  let xs ← behind w.mem x
  let ys ← behind w.mem y
  let h ← w.handle.setDstGrid (x.n0, x.n1) xs ys
  let z := zeros w.mem (x.n0 - 1) (x.n1 - 1)
  return (.returned, { w with handle := h, mem := z.1, dstData := some z.2 })

/-- `setSrcGrid` (conserveInterp2D.py:40-54). -/
def World.setSrcGrid (w : World F) (p : Nat × Nat) (x y : Arr) : Cxx (Reply × World F) := do
  let xs ← behind w.mem x
  let ys ← behind w.mem y
  let h ← w.handle.setSrcGrid (x.n0, x.n1) p xs ys
  return (.returned, { w with handle := h, hasSrcCoords := true })

/-- `computeWeights` (conserveInterp2D.py:70-79). -/
def World.computeWeights (g : Gels F) (sort : List (Pt F) → List (Pt F)) (mode : Mode) (w : World F) :
    Cxx (Reply × World F) := do
  if !w.hasSrcCoords then return (.raised, w)
  else if w.dstData.isNone then return (.raised, w)
  else
    let h ← w.handle.computeWeights g sort mode
    return (.returned, { w with handle := h, hasInterpWeights := true })

/-- `apply` (conserveInterp2D.py:56-68).  Without a destination array `None *= 0` raises as well. -/
def World.apply (w : World F) (srcData : Arr) : Cxx (Reply × World F) := do
  if !w.hasInterpWeights then return (.raised, w)
  else
    match w.dstData with
    | none => return (.raised, w)
    | some d =>
      let m ← timesZero w.mem d
      let m ← nativeApply w.handle srcData d m
      return (.array d, { w with mem := m })

/-- One statement of a program. -/
def World.step (g : Gels F) (sort : List (Pt F) → List (Pt F)) (mode : Mode) (w : World F) : Stmt F → Cxx (Reply × World F)
  | .setDstGrid x y => w.setDstGrid x y
  | .setSrcGrid p x y => w.setSrcGrid p x y
  | .computeWeights => w.computeWeights g sort mode
  | .apply s => w.apply s
  | .create data => return (.returned, { w with mem := w.mem ++ [data] })
  | .write b k v => do
    let m ← store w.mem { buf := b, off := 0, n0 := 1, n1 := 1, s0 := 1, s1 := 1 } k v
    return (.returned, { w with mem := m })

/-- A program, exceptions being caught. -/
def World.run (g : Gels F) (sort : List (Pt F) → List (Pt F)) (mode : Mode) (w : World F) : List (Stmt F) → Cxx (World F)
  | [] => .ok w
  | c :: l => do
    let r ← w.step g sort mode c
    r.2.run g sort mode l

end Sg.PyNp
