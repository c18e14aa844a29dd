import Verif.Model.Resources
/-
Specification side of C75: the life of each object in a program, and what it leaves behind.
-/
namespace Sg.Spec
open Sg.Resources

/-- The life of an object: its class, the calls made on it and whether it has been deleted. -/
structure Life where
  kind : Kind
  calls : List Op
  deleted : Bool

/-- The lives of the objects after one more statement; none if it uses an object that was not made or has been deleted. -/
def liveOn (t : List Life) : Stmt → Option (List Life)
  | .new k => some (t ++ [⟨k, [], false⟩])
  | .call i c =>
    match t[i]? with
    | some l => if l.deleted then none else some (t.set i { l with calls := l.calls ++ [c] })
    | none => none
  | .del i =>
    match t[i]? with
    | some l => if l.deleted then none else some (t.set i { l with deleted := true })
    | none => none

/-- The lives of the objects of a program; none if it uses an object that was not made or has been deleted. -/
def lives (t : List Life) : List Stmt → Option (List Life)
  | [] => some t
  | c :: l => (liveOn t c).bind fun t => lives t l

/-- The number of calls with a property. -/
def countCalls (p : Op → Bool) (calls : List Op) : Nat := (calls.filter p).length

/-- The number of calls that set the grid of a finder: those with `ndims > 0`. -/
def gridCalls (calls : List Op) : Nat := countCalls (fun c => match c with | .setGrid nd => decide (0 < nd) | _ => false) calls
def srcCalls (calls : List Op) : Nat := countCalls (fun c => c = .setSrcGrid) calls
def quadCalls (calls : List Op) : Nat := countCalls (fun c => c = .setQuadPoints) calls
def weightCalls (calls : List Op) : Nat := countCalls (fun c => match c with | .computeWeights _ => true | _ => false) calls

/-- What a call of `SgFlowInterp2D_computeWeights` leaves: the solver of its intersector, and for `m > 0` pairs of a segment and a
cell, all but the last of the solvers of its finder. -/
def weightsLeft (c : Op) : Nat := match c with | .computeWeights m => 1 + (m - 1) | _ => 0

/-- The number of blocks an object leaves behind when it is deleted. -/
def leftBehind (k : Kind) (calls : List Op) : Nat :=
  match k with
  | .plain => 0
  | .quadX => 0
  | .lineX => 0
  | .finder => gridCalls calls - 1
  | .node => srcCalls calls - 1
  | .overlap => srcCalls calls - 1
  | .flows => quadCalls calls - 1
  | .conserve => weightCalls calls
  | .flow => (4 * srcCalls calls - 3) + (calls.map weightsLeft).sum

end Sg.Spec
