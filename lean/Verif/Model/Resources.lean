import Verif.Model.Cxx
/-
Model of what the classes allocate and release: every `new` and `delete` of /repo/cpp, and nothing else.  Memory owned by
`std::vector` and `std::map` members is released by their destructors and is not modelled, neither are the numbers the objects
hold.  Allocation never fails.
-/
namespace Sg.Resources
open Sg

/-- The allocated blocks: the address of the next one and the addresses of those not released. -/
structure Heap where
  next : Nat
  live : List Nat

/-- `new`. -/
def Heap.new (h : Heap) : Nat × Heap := (h.next, ⟨h.next + 1, h.next :: h.live⟩)

/-- `delete p`: nothing for the null pointer, undefined for a block that is not allocated. -/
def Heap.delete (h : Heap) : Option Nat → Cxx Heap
  | none => .ok h
  | some p => if p ∈ h.live then .ok { h with live := h.live.erase p } else .error .badPointer

/-! ### SgFindPointInCell_type -/

/-- SgFindPointInCell.h:18: the solver. -/
structure Finder where
  slvr : Option Nat

/-- SgFindPointInCell.h:73-80 (constructor): no solver. -/
def Finder.ctor : Finder := ⟨none⟩

/-- SgFindPointInCell.h:96-146: line 99 (`if (ndims <= 0) return`), line 145 (a new solver; the old one is not deleted). -/
def Finder.setGrid (f : Finder) (ndims : Int) (h : Heap) : Finder × Heap :=
  if ndims ≤ 0 then (f, h) else (⟨some h.new.1⟩, h.new.2)

/-- SgFindPointInCell.h:85-87 (destructor). -/
def Finder.dtor (f : Finder) (h : Heap) : Cxx Heap := h.delete f.slvr

/-! ### SgQuadLineFlows_type -/

/-- SgQuadLineFlows.h:31-34: two arrays and an index finder (its block and what is in it). -/
structure Flows where
  g0 : Nat
  g1 : Nat
  fp : Nat
  finder : Finder

/-- SgQuadLineFlows.h:43-55 (constructor): lines 50, 51 and 54. -/
def Flows.ctor (h : Heap) : Flows × Heap :=
  (⟨h.new.1, h.new.2.new.1, h.new.2.new.2.new.1, Finder.ctor⟩, h.new.2.new.2.new.2)

/-- SgQuadLineFlows.h:70-86: line 84 sets the grid (two dimensions) of the index finder. -/
def Flows.setQuadPoints (o : Flows) (h : Heap) : Flows × Heap :=
  ({ o with finder := (o.finder.setGrid 2 h).1 }, (o.finder.setGrid 2 h).2)

/-- SgQuadLineFlows.h:60-64 (destructor). -/
def Flows.dtor (o : Flows) (h : Heap) : Cxx Heap := do
  let h ← h.delete (some o.g0)
  let h ← h.delete (some o.g1)
  let h ← o.finder.dtor h
  h.delete (some o.fp)

/-- `m` calls of `setQuadPoints`. -/
def Flows.setMany (o : Flows) (h : Heap) : Nat → Flows × Heap
  | 0 => (o, h)
  | m + 1 => let r := o.setQuadPoints h; Flows.setMany r.1 r.2 m

/-! ### SgFlowInterp2D_type -/

/-- SgFlowInterp2D.h:37-39: the iterators. -/
structure Flow where
  node : Option Nat
  cell : Option Nat
  edge0 : Option Nat
  edge1 : Option Nat

/-- SgFlowInterp2D.h:44-51 (constructor). -/
def Flow.ctor : Flow := ⟨none, none, none, none⟩

/-- SgFlowInterp2D.h:99-124: lines 111-114, four new iterators; the old ones are not deleted. -/
def Flow.setSrcGrid (_ : Flow) (h : Heap) : Flow × Heap :=
  let r1 := h.new
  let r2 := r1.2.new
  let r3 := r2.2.new
  let r4 := r3.2.new
  (⟨some r1.1, some r2.1, some r3.1, some r4.1⟩, r4.2)

/-- SgFlowInterp2D.h:186-267: line 196 makes an intersector, whose constructor makes a solver (SgQuadLineIntersect.h:58) that no
destructor deletes; line 197 makes a `SgQuadLineFlows_type`, line 247 calls its `setQuadPoints` once for each pair of a segment
and a cell with two points or more, and it is destroyed at line 267.  `m` is the number of these pairs. -/
def Flow.computeWeights (o : Flow) (m : Nat) (h : Heap) : Cxx (Flow × Heap) := do
  let h := h.new.2
  let r := Flows.ctor h
  let r := Flows.setMany r.1 r.2 m
  let h ← r.1.dtor r.2
  .ok (o, h)

/-- SgFlowInterp2D.h:56-63 (destructor): the iterator over cells is not deleted. -/
def Flow.dtor (o : Flow) (h : Heap) : Cxx Heap := do
  let h ← h.delete o.node
  let h ← h.delete o.edge0
  h.delete o.edge1

/-! ### The C functions -/

/-- The classes.  `plain` stands for the classes without `new` in their methods: SgBoxIterator, SgLinearSolve, SgTriangulate,
SgTriangle, SgTetrahedron, SgLine, SgOctreePoints and SgTripolarGrid. -/
inductive Kind | plain | finder | node | overlap | quadX | lineX | flows | conserve | flow
  deriving DecidableEq

/-- What the members of an object point at. -/
inductive Obj
  | plain
  | finder (f : Finder)
  | node (fp : Nat) (f : Finder)
  | overlap (fp : Nat) (f : Finder)
  | quadX (slvr : Nat)
  | lineX (slvr : Nat)
  | flows (o : Flows)
  | conserve
  | flow (o : Flow)

/-- The constructors.  SgNodeInterp2D.h:45-47 and SgFindOverlappingCells2D.h:48-57 make a finder, SgQuadIntersect.h:40-49 and
SgQuadLineIntersect.h:52-62 a solver. -/
def construct (k : Kind) (h : Heap) : Obj × Heap :=
  match k with
  | .plain => (.plain, h)
  | .finder => (.finder Finder.ctor, h)
  | .node => (.node h.new.1 Finder.ctor, h.new.2)
  | .overlap => (.overlap h.new.1 Finder.ctor, h.new.2)
  | .quadX => (.quadX h.new.1, h.new.2)
  | .lineX => (.lineX h.new.1, h.new.2)
  | .flows => let r := Flows.ctor h; (.flows r.1, r.2)
  | .conserve => (.conserve, h)
  | .flow => (.flow Flow.ctor, h)

/-- The calls that allocate, on some class; `other` is any other function on an object.  `computeWeights m`: `m` is the number of
pairs of a segment and a cell with two points or more in SgFlowInterp2D_computeWeights, and means nothing for other classes. -/
inductive Op | setGrid (ndims : Int) | setSrcGrid | setQuadPoints | computeWeights (m : Nat) | other
  deriving DecidableEq

/-- A call on an object.  SgFindPointInCell_setGrid; SgNodeInterp2D.h:98 and SgFindOverlappingCells2D.h:83 (`setSrcGrid` sets the
grid of the finder); SgQuadLineFlows_setQuadPoints; SgConserveInterp2D.h:170 (an intersector, whose constructor makes a solver,
SgQuadIntersect.h:45, that no destructor deletes); SgFlowInterp2D_setSrcGrid and _computeWeights.  All other calls, and those the
class does not have, allocate nothing that outlives them. -/
def call (o : Obj) (c : Op) (h : Heap) : Cxx (Obj × Heap) :=
  match o, c with
  | .finder f, .setGrid nd => let r := f.setGrid nd h; .ok (.finder r.1, r.2)
  | .node p f, .setSrcGrid => let r := f.setGrid 2 h; .ok (.node p r.1, r.2)
  | .overlap p f, .setSrcGrid => let r := f.setGrid 2 h; .ok (.overlap p r.1, r.2)
  | .flows o, .setQuadPoints => let r := o.setQuadPoints h; .ok (.flows r.1, r.2)
  | .conserve, .computeWeights _ => .ok (.conserve, h.new.2)
  | .flow o, .setSrcGrid => let r := o.setSrcGrid h; .ok (.flow r.1, r.2)
  | .flow o, .computeWeights m => do
    let r ← o.computeWeights m h
    .ok (.flow r.1, r.2)
  | o, _ => .ok (o, h)

/-- The destructors.  SgNodeInterp2D.h:52-54 and SgFindOverlappingCells2D.h:62-64 delete the finder; SgQuadIntersect.cpp:19 and
SgQuadLineIntersect.cpp:19 delete the solver before the object. -/
def destroy (o : Obj) (h : Heap) : Cxx Heap :=
  match o with
  | .plain => .ok h
  | .finder f => f.dtor h
  | .node p f => do
    let h ← f.dtor h
    h.delete (some p)
  | .overlap p f => do
    let h ← f.dtor h
    h.delete (some p)
  | .quadX s => h.delete (some s)
  | .lineX s => h.delete (some s)
  | .flows o => o.dtor h
  | .conserve => .ok h
  | .flow o => o.dtor h

/-- A statement of a program that uses the library: make an object, call a function on the `i`-th object made, delete it. -/
inductive Stmt | new (k : Kind) | call (i : Nat) (c : Op) | del (i : Nat)
  deriving DecidableEq

/-- The allocated blocks and the objects made so far (none if deleted), each with its own block. -/
structure State where
  heap : Heap
  objs : List (Option (Nat × Obj))

/-- The functions `_new` and `_del` of the classes (for instance SgFlowInterp2D.cpp:9-19) and calls. -/
def step (s : State) : Stmt → Cxx State
  | .new k =>
    let r := construct k s.heap.new.2
    .ok ⟨r.2, s.objs ++ [some (s.heap.new.1, r.1)]⟩
  | .call i c =>
    match s.objs[i]? with
    | some (some (p, o)) => do
      let r ← call o c s.heap
      .ok ⟨r.2, s.objs.set i (some (p, r.1))⟩
    | _ => .error .badPointer
  | .del i =>
    match s.objs[i]? with
    | some (some (p, o)) => do
      let h ← destroy o s.heap
      let h ← h.delete (some p)
      .ok ⟨h, s.objs.set i none⟩
    | _ => .error .badPointer

/-- A program. -/
def run (s : State) : List Stmt → Cxx State
  | [] => .ok s
  | c :: l => do
    let s ← step s c
    run s l

end Sg.Resources
