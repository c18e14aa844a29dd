import Verif.Proof.Shift
import Verif.Model.ConserveInterp
/-
Conservative interpolation between grids that are both moved without turning.
-/
namespace Sg.Shift
open Sg.LinearSolve Sg.Triangulate Sg.QuadIntersect Sg.Conserve

set_option linter.unusedSectionVars false
variable {K : Type} [Field K] [LinearOrder K] [IsStrictOrderedRing K]

/-! ### Triangulation -/

theorem distanceSquare_mv (v p q : Pt K) : distanceSquare (mv v p) (mv v q) = distanceSquare p q := by
  simp only [distanceSquare, mv, add_sub_add_right_eq_sub]

theorem cross_mv (v p q r : Pt K) : cross (mv v p) (mv v q) (mv v r) = cross p q r := by
  simp only [cross, mv, add_sub_add_right_eq_sub]

theorem keepDistinct_mv (v : Pt K) : ∀ (l : List (Pt K)) (p : Pt K), keepDistinct (mv v p) (l.map (mv v)) = (keepDistinct p l).map (mv v)
  | [], p => rfl
  | q :: l, p => by
    simp only [List.map_cons, keepDistinct, distanceSquare_mv]
    split_ifs
    · rw [List.map_cons, keepDistinct_mv v l q]
    · exact keepDistinct_mv v l p

theorem remove_mv (v : Pt K) (l : List (Pt K)) : removeDegenerateSegments (l.map (mv v)) = (removeDegenerateSegments l).map (mv v) := by
  cases l with
  | nil => rfl
  | cons p l => simp only [List.map_cons, removeDegenerateSegments, keepDistinct_mv]

/-- Moved points in memory. -/
def mvMem (v : Pt K) (m : Mem K) : Mem K := { m with buf := m.buf.map (mv v) }

theorem memOf_mv (v : Pt K) (mode : Mode) (l : List (Pt K)) : memOf mode (l.map (mv v)) = mvMem v (memOf mode l) := by
  unfold memOf mvMem
  simp only [remove_mv, List.length_map, List.map_append, List.map_drop]

theorem read_mv (v : Pt K) (m : Mem K) (i : Nat) : Sim (fun a b => b = mv v a) (m.read i) ((mvMem v m).read i) := by
  unfold Mem.read
  change Sim _ _ (if i < m.readable then _ else _)
  by_cases h : i < m.readable
  · rw [if_pos h, if_pos h]
    exact sim_vget_map (mv v) m.buf i
  · rw [if_neg h, if_neg h]
    exact sim_error _

theorem area_mv (v : Pt K) (m : Mem K) (a b c : Nat) : (mvMem v m).area a b c = m.area a b c := by
  symm
  refine eq_of_sim (sim_bind (read_mv v m a) ?_)
  rintro p _ rfl
  refine sim_bind (read_mv v m b) ?_
  rintro q _ rfl
  refine sim_bind (read_mv v m c) ?_
  rintro r _ rfl
  exact sim_pure (cross_mv v p q r).symm

theorem dot_mv (v : Pt K) (m : Mem K) (a b c : Nat) : (mvMem v m).dot a b c = m.dot a b c := by
  symm
  refine eq_of_sim (sim_bind (read_mv v m a) ?_)
  rintro p _ rfl
  refine sim_bind (read_mv v m b) ?_
  rintro q _ rfl
  refine sim_bind (read_mv v m c) ?_
  rintro r _ rfl
  refine sim_pure ?_
  simp only [mv, add_sub_add_right_eq_sub]

theorem extrema_mv (v : Pt K) (m : Mem K) (a b c : Nat) : (mvMem v m).extrema a b c = m.extrema a b c := by
  unfold Mem.extrema
  simp only [dot_mv]

theorem firstLoop_mv (v : Pt K) (m : Mem K) : ∀ (k a b c : Nat) (s : K), (mvMem v m).firstLoop k a b c s = m.firstLoop k a b c s
  | 0, a, b, c, s => rfl
  | k + 1, a, b, c, s => by
    unfold Mem.firstLoop
    simp only [extrema_mv, area_mv, firstLoop_mv v m k]

theorem makeFirst_mv (v : Pt K) (m : Mem K) : (mvMem v m).makeFirstTriangle = m.makeFirstTriangle := by
  unfold Mem.makeFirstTriangle Mem.makeCounterClockwise
  simp only [area_mv, firstLoop_mv]
  rfl

theorem scan_mv (v : Pt K) (m : Mem K) (ip : Nat) : ∀ (es : List (Nat × Nat)) (w : Triangulate.Work), (mvMem v m).scan ip es w = m.scan ip es w
  | [], w => rfl
  | e :: es, w => by
    unfold Mem.scan Mem.isEdgeVisible
    simp only [area_mv, scan_mv v m ip es]

theorem hullArea_mv (v : Pt K) (mode : Mode) (l : List (Pt K)) : hullArea mode (l.map (mv v)) = hullArea mode l := by
  unfold hullArea build getConvexHullArea Mem.addPoint
  simp only [memOf_mv, makeFirst_mv, scan_mv, List.length_map, bind_assoc, pure_bind, area_mv]

/-! ### Intersections -/

/-- A moved quadrilateral. -/
def mvQuad (v : Pt K) (q : Quad K) : Quad K := fun i => mv v (q i)

/-- A moved intersector: the solver does not notice. -/
def mvIsect (v : Pt K) (s : Isect K) : Isect K :=
  { s with quad1 := s.quad1.map (mvQuad v), quad2 := s.quad2.map (mvQuad v), pts := s.pts.map (mv v) }

theorem stdMin_add (a b c : K) : stdMin (a + c) (b + c) = stdMin a b + c := by
  unfold stdMin
  simp only [add_lt_add_iff_right]
  split_ifs <;> rfl

theorem stdMax_add (a b c : K) : stdMax (a + c) (b + c) = stdMax a b + c := by
  unfold stdMax
  simp only [add_lt_add_iff_right]
  split_ifs <;> rfl

theorem axisOverlap_add (a b : Fin 4 → K) (c : K) : axisOverlap (fun i => a i + c) (fun i => b i + c) = axisOverlap a b := by
  unfold axisOverlap quadMin quadMax
  simp only [stdMin_add, stdMax_add, add_le_add_iff_right]

theorem boxesOverlap_mv (v : Pt K) (p q : Quad K) : boxesOverlap (mvQuad v p) (mvQuad v q) = boxesOverlap p q := by
  unfold boxesOverlap
  exact congrArg₂ _ (axisOverlap_add (fun i => (p i).1) (fun i => (q i).1) v.1) (axisOverlap_add (fun i => (p i).2) (fun i => (q i).2) v.2)

theorem triMat_mv (v a b c : Pt K) : triMat (mv v a) (mv v b) (mv v c) = triMat a b c := by
  funext k
  unfold triMat
  simp only [mv, add_sub_add_right_eq_sub]

theorem triRhs_mv (v a b : Pt K) : triRhs (mv v a) (mv v b) = triRhs a b := by
  funext k
  unfold triRhs
  simp only [mv, add_sub_add_right_eq_sub]

theorem edgeMat_mv (v a b c d : Pt K) : edgeMat (mv v a) (mv v b) (mv v c) (mv v d) = edgeMat a b c d := by
  funext k
  unfold edgeMat
  simp only [mv, add_sub_add_right_eq_sub]

theorem isPointInCell_mv (v : Pt K) (g : Gels K) (s : Solver K) (p : Pt K) (q : Quad K) : isPointInCell g s (mv v p) (mvQuad v q) = isPointInCell g s p q := by
  unfold isPointInCell checkIfPointIsInsideTriangle mvQuad
  simp only [triMat_mv, triRhs_mv]

theorem addPoint_mv (v : Pt K) (s : Isect K) (p : Pt K) : (mvIsect v s).addPoint (mv v p) = mvIsect v (s.addPoint p) := by
  unfold Isect.addPoint mvIsect
  simp only [List.map_append, List.map_cons, List.map_nil]

theorem collectEdge_mv (v : Pt K) (g : Gels K) (s : Isect K) (a b c d : Pt K) :
    Sim (fun r r' => r' = (mvIsect v r.1, r.2.map (mv v))) (s.collectEdge g a b c d) ((mvIsect v s).collectEdge g (mv v a) (mv v b) (mv v c) (mv v d)) := by
  unfold Isect.collectEdge
  rw [edgeMat_mv, triRhs_mv]
  refine sim_bind_eq ?_
  rintro ⟨sl, ier⟩
  dsimp only
  split_ifs
  · exact sim_pure rfl
  · refine sim_bind_eq fun x0 => sim_bind_eq fun x1 => ?_
    split_ifs
    · have e : ((mv v a).1 + x0 * ((mv v b).1 - (mv v a).1), (mv v a).2 + x0 * ((mv v b).2 - (mv v a).2)) =
          mv v (a.1 + x0 * (b.1 - a.1), a.2 + x0 * (b.2 - a.2)) := by
        simp only [mv, Prod.mk.injEq]
        constructor <;> ring
      rw [e]
      refine sim_pure ?_
      rw [Option.map_some, ← addPoint_mv]
      rfl
    · exact sim_pure rfl

/-! ### Caches -/

/-- Moved points in a map. -/
def mvMap {κ : Type} (v : Pt K) (m : List (κ × Pt K)) : List (κ × Pt K) := m.map fun e => (e.1, mv v e.2)

theorem mfind_mv {κ : Type} [DecidableEq κ] (v : Pt K) (k : κ) : ∀ m : List (κ × Pt K), mfind (mvMap v m) k = (mfind m k).map (mv v)
  | [] => rfl
  | e :: m => by
    have ih := mfind_mv v k m
    unfold mfind mvMap at ih ⊢
    rw [List.map_cons, List.lookup_cons, List.lookup_cons]
    split
    · rfl
    · exact ih

def mvCache (v : Pt K) (c : Cache K) : Cache K := { edgeX := mvMap v c.edgeX, edgeNoX := c.edgeNoX, dstIn := mvMap v c.dstIn, srcIn := mvMap v c.srcIn }

def mvWork (v : Pt K) (w : Conserve.Work K) : Conserve.Work K := (mvIsect v w.1, mvCache v w.2)

theorem dstNodeStep_mv (v : Pt K) (g : Gels K) (a b : Nat) (p : Pt K) (q : Quad K) (w : Conserve.Work K) :
    Sim (fun r r' => r' = mvWork v r) (dstNodeStep g a b p q w) (dstNodeStep g a b (mv v p) (mvQuad v q) (mvWork v w)) := by
  unfold dstNodeStep
  change Sim _ _ (match mfind (mvMap v w.2.dstIn) (b, a) with | some _ => _ | none => _)
  rw [mfind_mv]
  cases mfind w.2.dstIn (b, a) with
  | some x => exact sim_pure (congrArg (·, mvCache v w.2) (addPoint_mv v w.1 p))
  | none =>
    dsimp only [Option.map_none]
    rw [isPointInCell_mv]
    refine sim_bind_eq ?_
    rintro ⟨sl, ret⟩
    dsimp only
    split_ifs
    · refine sim_pure ?_
      unfold mvWork
      rw [← addPoint_mv]
      rfl
    · exact sim_pure rfl

theorem srcNodeStep_mv (v : Pt K) (g : Gels K) (a b : Nat) (p : Pt K) (q : Quad K) (w : Conserve.Work K) :
    Sim (fun r r' => r' = mvWork v r) (srcNodeStep g a b p q w) (srcNodeStep g a b (mv v p) (mvQuad v q) (mvWork v w)) := by
  unfold srcNodeStep
  change Sim _ _ (match mfind (mvMap v w.2.srcIn) (a, b) with | some _ => _ | none => _)
  rw [mfind_mv]
  cases mfind w.2.srcIn (a, b) with
  | some x => exact sim_pure (congrArg (·, mvCache v w.2) (addPoint_mv v w.1 p))
  | none =>
    dsimp only [Option.map_none]
    rw [isPointInCell_mv]
    refine sim_bind_eq ?_
    rintro ⟨sl, ret⟩
    dsimp only
    split_ifs
    · refine sim_pure ?_
      unfold mvWork
      rw [← addPoint_mv]
      rfl
    · exact sim_pure rfl

theorem edgeStep_mv (v : Pt K) (g : Gels K) (key : EdgeKey) (a b c d : Pt K) (w : Conserve.Work K) :
    Sim (fun r r' => r' = mvWork v r) (edgeStep g key a b c d w) (edgeStep g key (mv v a) (mv v b) (mv v c) (mv v d) (mvWork v w)) := by
  unfold edgeStep
  change Sim _ _ (if key ∈ w.2.edgeNoX then _ else match mfind (mvMap v w.2.edgeX) key with | some p => _ | none => _)
  by_cases h : key ∈ w.2.edgeNoX
  · rw [if_pos h, if_pos h]
    exact sim_pure rfl
  rw [if_neg h, if_neg h, mfind_mv]
  cases mfind w.2.edgeX key with
  | some x => exact sim_pure (congrArg (·, mvCache v w.2) (addPoint_mv v w.1 x))
  | none =>
    dsimp only [Option.map_none]
    refine sim_bind (collectEdge_mv v g w.1 a b c d) ?_
    rintro ⟨is, r⟩ _ rfl
    cases r with
    | none => exact sim_pure rfl
    | some p => exact sim_pure rfl

theorem pairStep_mv (v : Pt K) (g : Gels K) (a b : Nat) (dn : Fin 4 → Nat) (dq : Quad K) (sn : Fin 4 → Nat) (sq : Quad K) (w : Conserve.Work K) :
    Sim (fun r r' => r' = mvWork v r) (pairStep g a b dn dq sn sq w) (pairStep g a b dn (mvQuad v dq) sn (mvQuad v sq) (mvWork v w)) := by
  refine sim_forN' 4 rfl ?_
  rintro i w _ - rfl
  refine sim_bind (dstNodeStep_mv v g b _ _ sq w) ?_
  rintro w _ rfl
  refine sim_forN' 4 rfl ?_
  rintro j w _ - rfl
  refine sim_bind (srcNodeStep_mv v g a _ _ dq w) ?_
  rintro w _ rfl
  exact edgeStep_mv v g _ _ _ _ _ w

/-! ### Grids and weights -/

/-- Two grids, one moved. -/
structure MovedGrid (v : Pt K) (a b : Grid K) : Prop where
  dims : b.nodeDims = a.nodeDims
  coords : MovedBy (comp2 v) a.coords b.coords

theorem makeGrid_mv (v : Pt K) (dims : Nat × Nat) (x y : List K) : Sim (MovedGrid v) (makeGrid dims x y) (makeGrid dims (x.map (· + v.1)) (y.map (· + v.2))) := by
  have h := sim_copy (fun _ => True) trivial v (1 * dims.1 * dims.2) x y (fun _ => 0) (fun _ => 0) (fun _ _ _ => ⟨trivial, trivial⟩) fun _ _ _ => ⟨trivial, trivial⟩
  unfold makeGrid
  dsimp only
  rw [← bind_assoc, ← bind_assoc]
  simp only [add_zero] at h ⊢
  refine sim_bind h fun a b hab => sim_pure ⟨rfl, hab.1⟩

theorem nodeCoord_mv {v : Pt K} {a b : Grid K} (h : MovedGrid v a b) (n : Nat) : Sim (fun p q => q = mv v p) (a.nodeCoord n) (b.nodeCoord n) := by
  refine sim_bind (sim_vget_moved h.coords _) ?_
  rintro x _ rfl
  refine sim_bind (sim_vget_moved h.coords _) ?_
  rintro y _ rfl
  refine sim_pure ?_
  rw [comp2_even, comp2_odd]
  rfl

theorem quadCoord_mv {v : Pt K} {a b : Grid K} (h : MovedGrid v a b) (n : Nat) : Sim (fun p q => q = (p.1, mvQuad v p.2)) (a.quadCoord n) (b.quadCoord n) := by
  have e1 : b.cellDims = a.cellDims := by unfold Grid.cellDims; rw [h.dims]
  have e2 : b.cellDimProd = a.cellDimProd := by unfold Grid.cellDimProd; rw [e1]
  have e3 : b.nodeDimProd = a.nodeDimProd := by unfold Grid.nodeDimProd; rw [h.dims]
  unfold Grid.quadCoord
  rw [e1, e2, e3]
  refine sim_bind_eq fun q0 => sim_bind_eq fun c0 => sim_bind_eq fun q1 => sim_bind_eq fun c1 => ?_
  refine sim_bind (nodeCoord_mv h _) ?_
  rintro p0 _ rfl
  refine sim_bind (nodeCoord_mv h _) ?_
  rintro p1 _ rfl
  refine sim_bind (nodeCoord_mv h _) ?_
  rintro p2 _ rfl
  refine sim_bind (nodeCoord_mv h _) ?_
  rintro p3 _ rfl
  refine sim_pure (Prod.ext rfl ?_)
  funext i
  match i with
  | 0 => rfl
  | 1 => rfl
  | 2 => rfl
  | 3 => rfl

theorem srcStep_mv {v : Pt K} {src src' : Grid K} (h : MovedGrid v src src') (g : Gels K) (sort : List (Pt K) → List (Pt K))
    (hsort : ∀ l, sort (l.map (mv v)) = (sort l).map (mv v)) (mode : Mode) (di : Nat) (dn : Fin 4 → Nat) (dq : Quad K) (ar : K) (si : Nat) (s : Conserve.Work K × List (Nat × K)) :
    Sim (fun r r' => r' = (mvWork v r.1, r.2)) (srcStep g sort mode src di dn dq ar si s) (srcStep g sort mode src' di dn (mvQuad v dq) ar si (mvWork v s.1, s.2)) := by
  unfold srcStep
  refine sim_bind (quadCoord_mv h si) ?_
  rintro ⟨sn, sq⟩ _ rfl
  dsimp only
  refine sim_bind (R := Eq) (sim_of_eq ?_) ?_
  · exact congrArg Except.ok (boxesOverlap_mv v dq sq).symm
  rintro ov _ rfl
  have e : (mvWork v s.1).1.reset.setQuadPoints (mvQuad v dq) (mvQuad v sq) = mvIsect v (s.1.1.reset.setQuadPoints dq sq) := rfl
  by_cases ho : ov = true
  · rw [if_pos ho, if_pos ho]
    refine sim_bind (pairStep_mv v g di si dn dq sn sq (s.1.1.reset.setQuadPoints dq sq, s.1.2)) ?_
    rintro w _ rfl
    have hl : (mvWork v w).1.pts = w.1.pts.map (mv v) := rfl
    rw [hl, List.length_map, hsort, hullArea_mv]
    split_ifs
    · refine sim_bind_eq fun area => sim_pure rfl
    · exact sim_pure rfl
  · rw [if_neg ho, if_neg ho]
    exact sim_pure rfl

theorem dstStep_mv {v : Pt K} {src src' dst dst' : Grid K} (h : MovedGrid v src src') (hd : MovedGrid v dst dst') (g : Gels K) (sort : List (Pt K) → List (Pt K))
    (hsort : ∀ l, sort (l.map (mv v)) = (sort l).map (mv v)) (mode : Mode) (di : Nat) (s : Conserve.Work K × Table K) :
    Sim (fun r r' => r' = (mvWork v r.1, r.2)) (dstStep g sort mode src dst di s) (dstStep g sort mode src' dst' di (mvWork v s.1, s.2)) := by
  have e1 : src'.numCells = src.numCells := by unfold Grid.numCells Grid.cellDims; rw [h.dims]
  unfold dstStep
  refine sim_bind (quadCoord_mv hd di) ?_
  rintro ⟨dn, dq⟩ _ rfl
  dsimp only
  have e2 : [mvQuad v dq 0, mvQuad v dq 1, mvQuad v dq 2, mvQuad v dq 3] = [dq 0, dq 1, dq 2, dq 3].map (mv v) := rfl
  rw [e1, e2, hsort, hullArea_mv]
  refine sim_bind_eq fun ar => ?_
  refine sim_bind (R := fun r r' => r' = (mvWork v r.1, r.2)) (sim_forN' _ rfl ?_) ?_
  · rintro i a _ - rfl
    exact srcStep_mv h g sort hsort mode di dn dq ar i a
  · rintro ⟨w, iw⟩ _ rfl
    exact sim_pure rfl

/-- Setting both grids and computing the weights: same weights or same failure. -/
theorem compute_mv (v : Pt K) (g : Gels K) (sort : List (Pt K) → List (Pt K)) (hsort : ∀ l, sort (l.map (mv v)) = (sort l).map (mv v)) (mode : Mode) (o : Interp K)
    {src src' dst dst' : Grid K} (h : MovedGrid v src src') (hd : MovedGrid v dst dst') :
    Sim (fun a b => b.weights = a.weights) (({ o with src := some src, dst := some dst } : Interp K).computeWeights g sort mode)
      (({ o with src := some src', dst := some dst' } : Interp K).computeWeights g sort mode) := by
  have e1 : dst'.numCells = dst.numCells := by unfold Grid.numCells Grid.cellDims; rw [hd.dims]
  unfold Interp.computeWeights
  dsimp only
  rw [e1]
  refine sim_bind (R := fun r r' => r' = (mvWork v r.1, r.2)) (sim_forN' _ rfl ?_) ?_
  · rintro i a _ - rfl
    exact dstStep_mv h hd g sort hsort mode i a
  · rintro ⟨w, t⟩ _ rfl
    exact sim_pure rfl

end Sg.Shift
