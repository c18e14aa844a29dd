import Verif.Proof.ConserveShift
import Verif.Proof.NodeShift
import Verif.Proof.QuadFlows
import Verif.Model.FlowInterp
/-
Flow interpolation between a grid and a line that are both moved without turning.
-/
namespace Sg.Shift
open Sg.LinearSolve Sg.Triangulate Sg.QuadIntersect Sg.QuadLine Sg.QuadFlows Sg.FlowInterp Sg.FindPoint Sg.Spec Sg.NodeInterp

set_option linter.unusedSectionVars false
variable {K : Type} [Field K] [LinearOrder K] [IsStrictOrderedRing K]

/-! ### Intersections of the line with a cell -/

def mvBox (v : Pt K) (b : QuadLine.Box K) : QuadLine.Box K := { min := mv v b.min, max := mv v b.max }

def mvLine (v : Pt K) (s : Line K) : Line K :=
  { s with quad := s.quad.map fun e => (mvQuad v e.1, mvBox v e.2), line := s.line.map fun e => ((mv v e.1.1, mv v e.1.2), mvBox v e.2), points := s.points.map (mv v) }

theorem quadBox_mv (v : Pt K) (q : Quad K) : quadBox (mvQuad v q) = mvBox v (quadBox q) := by
  unfold quadBox mvBox quadMin quadMax mvQuad mv
  simp only [stdMin_add, stdMax_add]

theorem lineBox_mv (v a b : Pt K) : lineBox (mv v a) (mv v b) = mvBox v (lineBox a b) := by
  unfold lineBox mvBox mv
  simp only [stdMin_add, stdMax_add]

theorem setQuad_mv (v : Pt K) (s : Line K) (q : Quad K) : (mvLine v s).setQuadPoints (mvQuad v q) = mvLine v (s.setQuadPoints q) := by
  unfold Line.setQuadPoints mvLine
  simp only [quadBox_mv, Option.map_some]

theorem setLine_mv (v : Pt K) (s : Line K) (a b : Pt K) : (mvLine v s).setLinePoints (mv v a) (mv v b) = mvLine v (s.setLinePoints a b) := by
  unfold Line.setLinePoints mvLine
  simp only [lineBox_mv, Option.map_some]

theorem overlap_mv (v : Pt K) (s : Line K) : (mvLine v s).checkIfOverlap = s.checkIfOverlap := by
  obtain ⟨sl, q, l, la, p⟩ := s
  cases q with
  | none => rfl
  | some q =>
    cases l with
    | none => rfl
    | some l =>
      unfold Line.checkIfOverlap mvLine mvBox mv
      simp only [Option.map_some, stdMin_add, stdMax_add, add_le_add_iff_right]

theorem isPointInQuad_mv (v : Pt K) (g : Gels K) (s : Solver K) (p : Pt K) (q : Quad K) : isPointInQuad g s (mv v p) (mvQuad v q) = isPointInQuad g s p q := by
  unfold isPointInQuad QuadLine.checkIfPointIsInsideTriangle mvQuad
  simp only [triMat_mv, triRhs_mv]

theorem collectLineEdge_mv (v : Pt K) (g : Gels K) (s : Line K) (a b c d : Pt K) :
    Sim (fun r r' => r' = (mvLine v r.1, r.2)) (s.collectEdge g a b c d) ((mvLine v s).collectEdge g (mv v a) (mv v b) (mv v c) (mv v d)) := by
  unfold Line.collectEdge
  rw [edgeMat_mv, triRhs_mv]
  refine sim_bind_eq ?_
  rintro ⟨sl, ier⟩
  dsimp only
  split_ifs
  · exact sim_pure rfl
  · refine sim_bind_eq fun x0 => sim_bind_eq fun x1 => ?_
    split_ifs
    · exact sim_pure rfl
    · exact sim_pure rfl

theorem collectEnd_mv (v : Pt K) (g : Gels K) (s : Line K) (p : Pt K) (q : Quad K) (l : K) :
    Sim (fun r r' => r' = mvLine v r) (s.collectEnd g p q l) ((mvLine v s).collectEnd g (mv v p) (mvQuad v q) l) := by
  unfold Line.collectEnd
  rw [isPointInQuad_mv]
  refine sim_bind_eq ?_
  rintro ⟨sl, b⟩
  cases b
  · exact sim_pure rfl
  · exact sim_pure rfl

theorem linePoint_mv (v a b : Pt K) (l : K) : linePoint (mv v a) (mv v b) l = mv v (linePoint a b l) := by
  unfold linePoint mv
  simp only [Prod.mk.injEq]
  constructor <;> ring

theorem collect_mv (v : Pt K) (g : Gels K) (srt : List K → List K) (s : Line K) :
    Sim (fun r r' => r' = (mvLine v r.1, r.2.map (mv v))) (s.collectIntersectPoints g srt) ((mvLine v s).collectIntersectPoints g srt) := by
  obtain ⟨sl, q, l, la, p⟩ := s
  cases q with
  | none => exact sim_error _
  | some q =>
    cases l with
    | none => exact sim_error _
    | some l =>
      obtain ⟨q, bq⟩ := q
      obtain ⟨⟨a, b⟩, bl⟩ := l
      unfold Line.collectIntersectPoints
      refine sim_bind (collectEnd_mv v g _ a q 0) ?_
      rintro s _ rfl
      refine sim_bind (R := fun r r' => r' = mvLine v r) (sim_forN' 4 rfl ?_) ?_
      · rintro i s _ - rfl
        refine sim_bind (collectLineEdge_mv v g s _ _ a b) ?_
        rintro ⟨s, k⟩ _ rfl
        exact sim_pure rfl
      rintro s _ rfl
      refine sim_bind (collectEnd_mv v g _ b q 1) ?_
      rintro s _ rfl
      refine sim_pure ?_
      have e : ∀ l : List K, l.map (linePoint (mv v a) (mv v b)) = (l.map (linePoint a b)).map (mv v) := fun l => by
        rw [List.map_map]
        exact List.map_congr_left fun x _ => linePoint_mv v a b x
      unfold mvLine
      simp only [e]

/-! ### Projections -/

variable [FloorRing K] [FOps K] [FOpsLaws K]

/-- In the range of numbers that are not overflown. -/
def InR (c : K) : Prop := -FOps.big ≤ c ∧ c ≤ FOps.big

theorem setGrid_moved {n : Nat} {f f' : Finder K n} {v : Fin n → K} (hm : Moved v f f') (dims : Fin n → Nat) (hd : ∀ i, 1 ≤ dims i) (per : Fin n → Int)
    (coords : Fin n → Nat → K) (h1 : ∀ i, InR (coords i 0)) (h2 : ∀ i, InR (coords i 0 + v i)) :
    Moved v (f.setGrid dims per coords) (f'.setGrid dims per fun i k => coords i k + v i) := by
  obtain ⟨t, rfl⟩ := hm
  have hN : 1 ≤ ∏ i, dims i := Nat.succ_le_of_lt (Finset.prod_pos fun i _ => hd i)
  refine ⟨(({ shiftF v f with targetPoint := t } : Finder K n).setGrid dims per fun i k => coords i k + v i).targetPoint, ?_⟩
  obtain ⟨sl, co, bo, ip, dm, tp, nm, tl, it, di, eh, oe⟩ := f
  cases bo with
  | none =>
    unfold Finder.setGrid shiftF
    simp only [Option.map_none, Option.getD_none, Option.isSome_none, Bool.false_eq_true, if_false, Option.map_some, List.map_map]
    congr 3
    congr 1
    · funext i
      exact fold_min_shift (coords i) (v i) _ _ hN (h1 i).2 (h2 i).2
    · funext i
      exact fold_max_shift (coords i) (v i) _ _ hN (h1 i).1 (h2 i).1
  | some b =>
    unfold Finder.setGrid shiftF
    simp only [Option.map_some, Option.getD_some, Option.isSome_some, if_true, List.map_map]
    congr 3
    congr 1
    · funext i
      generalize b.1 i = m
      induction (List.range (∏ i, dims i)) generalizing m with
      | nil => rfl
      | cons j l ih =>
        rw [List.foldl_cons, List.foldl_cons]
        simp only [add_lt_add_iff_right]
        by_cases h : m < coords i j
        · rw [if_pos h, if_pos h]; exact ih m
        · rw [if_neg h, if_neg h]; exact ih _
    · funext i
      generalize b.2 i = m
      induction (List.range (∏ i, dims i)) generalizing m with
      | nil => rfl
      | cons j l ih =>
        rw [List.foldl_cons, List.foldl_cons]
        simp only [add_lt_add_iff_right]
        by_cases h : coords i j < m
        · rw [if_pos h, if_pos h]; exact ih m
        · rw [if_neg h, if_neg h]; exact ih _

/-- Projectors of moved cells; the line is set before each use. -/
structure FlowsR (v : Pt K) (f f' : Flows K) : Prop where
  finder : Moved (comp v) f.finder f'.finder
  xia : f'.xia = f.xia
  xib : f'.xib = f.xib
  projections : f'.projections = f.projections

/-- A projector with a cell. -/
def CellSet (f : Finder K 2) : Prop := GridOK f ∧ f.dims = fun _ => 2

theorem comp_mv (v p : Pt K) (k : Fin 2) : comp (mv v p) k = comp p k + comp v k := by
  match k with
  | 0 => rfl
  | 1 => rfl

theorem setQuadPoints_mv {v : Pt K} {f f' : Flows K} (h : FlowsR v f f') (q : Quad K) (h1 : ∀ k, InR (comp (q 0) k)) (h2 : ∀ k, InR (comp (mv v (q 0)) k)) :
    FlowsR v (f.setQuadPoints q) (f'.setQuadPoints (mvQuad v q)) ∧ CellSet (f.setQuadPoints q).finder := by
  have hm := setGrid_moved h.finder (fun _ => 2) (fun _ => by norm_num) (fun _ => 0) (fun k j => comp (q (gridNode j)) k) h1
    (fun k => by rw [← comp_mv]; exact h2 k)
  refine ⟨⟨?_, h.xia, h.xib, h.projections⟩, ⟨ready_setGrid _ _ _ _, goodDims2, fun i => by simp [Flows.setQuadPoints, Finder.setGrid]⟩, rfl⟩
  have e : (fun k j => comp (mvQuad v q (gridNode j)) k) = fun (k : Fin 2) j => comp (q (gridNode j)) k + comp v k := by
    funext k j
    exact comp_mv v _ k
  unfold Flows.setQuadPoints
  rw [e]
  exact hm

theorem findIndices_mv (g : Gels K) (hg : KeepsSizes g) {v : Pt K} {f f' : Finder K 2} (hm : Moved (comp v) f f') (hf : CellSet f) (p : Pt K) :
    Sim (fun r r' => r'.1 = r.1 ∧ r'.2.1 = r.2.1 ∧ Moved (comp v) r.2.2 r'.2.2 ∧ CellSet r.2.2) (findIndices g f p) (findIndices g f' (mv v p)) := by
  obtain ⟨t, rfl⟩ := hm
  obtain ⟨hf, hd⟩ := hf
  have hin : InGrid f.dims (fun _ => (1 : K) / (1 + 1)) := by rw [hd]; exact half_inGrid
  have hG : Good (f.reset (fun _ => 1 / (1 + 1)) (comp p)) := ⟨ready_reset f _ _ hf.ready, hf.dims, hf.coords, okPos_of_inGrid _ hf.dims _ hin⟩
  obtain ⟨c, s, e, hs, hi, hsame, -, -⟩ := QuadFlows.loop_good g hg (f.reset (fun _ => 1 / (1 + 1)) (comp p)).fuelOf _ hG hin
  have h2 := loop_shift g hg (by norm_num) (comp v) _ _ hG hin e
  have e' : (({ shiftF (comp v) f with targetPoint := t } : Finder K 2)).reset (fun _ => 1 / (1 + 1)) (comp (mv v p)) =
      shiftF (comp v) (f.reset (fun _ => 1 / (1 + 1)) (comp p)) := by
    unfold Finder.reset shiftF
    simp only [funext (comp_mv v p)]
  unfold findIndices
  dsimp only
  rw [e', e]
  have h3 : searchLoop g (shiftF (comp v) (f.reset (fun _ => 1 / (1 + 1)) (comp p))).fuelOf (shiftF (comp v) (f.reset (fun _ => 1 / (1 + 1)) (comp p))) =
      .ok (c, shiftF (comp v) s) := h2
  rw [h3]
  exact sim_pure ⟨rfl, rfl, moved_shift _ _, ⟨hs.ready, hs.dims, hs.coords⟩, by rw [hsame.dims]; exact hd⟩

theorem computeProjections_mv (g : Gels K) (hg : KeepsSizes g) {v : Pt K} {f f' : Flows K} (h : FlowsR v f f') (hf : CellSet f.finder) (a b : Pt K) :
    Sim (fun r r' => FlowsR v r.1 r'.1 ∧ CellSet r.1.finder ∧ r'.2 = r.2) ((f.setLinePoints a b).computeProjections g)
      ((f'.setLinePoints (mv v a) (mv v b)).computeProjections g) := by
  unfold Flows.computeProjections Flows.computeStartEndLineIndices Flows.setLinePoints
  dsimp only
  refine sim_bind (R := fun r r' => (FlowsR v r.1 r'.1 ∧ CellSet r.1.finder) ∧ r'.2 = r.2) ?_ ?_
  · refine sim_bind (findIndices_mv g hg h.finder hf a) ?_
    rintro ⟨c, x, s⟩ ⟨c', x', s'⟩ ⟨h1, h2, h3, h4⟩
    dsimp only at h1 h2 h3 h4 ⊢
    subst h1 h2
    refine sim_bind (findIndices_mv g hg h3 h4 b) ?_
    rintro ⟨c1, x1, s1⟩ ⟨c1', x1', s1'⟩ ⟨h1, h2, h5, h6⟩
    dsimp only at h1 h2 h5 h6 ⊢
    subst h1 h2
    exact sim_pure ⟨⟨⟨h5, rfl, rfl, h.projections⟩, h6⟩, rfl⟩
  · rintro ⟨s, r⟩ ⟨s', r'⟩ ⟨⟨h1, h2⟩, h3⟩
    exact sim_pure ⟨⟨h1.finder, h1.xia, h1.xib, by dsimp only; rw [h1.xia, h1.xib]⟩, h2, h3⟩

theorem pieces_mv (g : Gels K) (hg : KeepsSizes g) {v : Pt K} (points : List (Pt K)) {f f' : Flows K} (h : FlowsR v f f') (hf : CellSet f.finder) :
    Sim (fun r r' => FlowsR v r.1 r'.1 ∧ r'.2 = r.2) (pieces g points f) (pieces g (points.map (mv v)) f') := by
  unfold pieces
  rw [List.length_map]
  refine sim_mono (sim_forN' (R := fun (r r' : Flows K × (Fin 4 → K)) => FlowsR v r.1 r'.1 ∧ CellSet r.1.finder ∧ r'.2 = r.2) _ ⟨h, hf, rfl⟩ ?_) fun a b h => ⟨h.1, h.2.2⟩
  rintro i ⟨s, w⟩ ⟨s', w'⟩ - ⟨h1, h2, h3⟩
  dsimp only at h1 h2 h3 ⊢
  subst h3
  refine sim_bind (sim_vget_map (mv v) points i) ?_
  rintro a _ rfl
  refine sim_bind (sim_vget_map (mv v) points (i + 1)) ?_
  rintro b _ rfl
  refine sim_bind (computeProjections_mv g hg h1 h2 a b) ?_
  rintro ⟨r, c⟩ ⟨r', c'⟩ ⟨h3, h4, h5⟩
  dsimp only at h3 h4 h5 ⊢
  have e : ∀ k, r'.getProjection k = r.getProjection k := fun k => by unfold Flows.getProjection; rw [h3.projections]
  simp only [e]
  exact sim_bind_eq fun p0 => sim_bind_eq fun p1 => sim_bind_eq fun p2 => sim_bind_eq fun p3 => sim_pure ⟨h3, h4, rfl⟩

/-! ### Grids and lines -/

structure MovedSrc (v : Pt K) (a b : Src K) : Prop where
  coords : MovedIn InR (comp2 v) a.coords b.coords
  numCells : b.numCells = a.numCells
  nodeIt : b.nodeIt = a.nodeIt
  cellIt : b.cellIt = a.cellIt
  edgeIt0 : b.edgeIt0 = a.edgeIt0
  edgeIt1 : b.edgeIt1 = a.edgeIt1

structure MovedDst (v : Pt K) (a b : Dst K) : Prop where
  coords : MovedBy (comp2 v) a.coords b.coords
  numCells : b.numCells = a.numCells

theorem setSrc_mv (hbig : (0 : K) ≤ FOps.big) (v : Pt K) (o o' : Flow K) (dims : Nat × Nat) (x y : List K) (hx : ∀ c ∈ x, InR c ∧ InR (c + v.1)) (hy : ∀ c ∈ y, InR c ∧ InR (c + v.2)) :
    Sim (fun a b => ∃ s s', a = { o with src := some s } ∧ b = { o' with src := some s' } ∧ MovedSrc v s s') (o.setSrcGrid dims x y)
      (o'.setSrcGrid dims (x.map (· + v.1)) (y.map (· + v.2))) := by
  unfold Flow.setSrcGrid
  refine sim_bind_eq fun np => sim_bind_eq fun nc => sim_bind_eq fun i1 => sim_bind_eq fun i2 => sim_bind_eq fun i3 => sim_bind_eq fun i4 => ?_
  have h := sim_copy (InR (K := K)) ⟨by linarith, hbig⟩ v np.toNat x y (fun _ => 0) (fun _ => 0) (fun c hc _ => by simpa using hx c hc) fun c hc _ => by simpa using hy c hc
  rw [← bind_assoc, ← bind_assoc]
  simp only [add_zero] at h ⊢
  exact sim_bind h fun a b hab => sim_pure ⟨_, _, rfl, rfl, hab, rfl, rfl, rfl, rfl, rfl⟩

theorem setDst_mv (pert : Nat → Nat → Nat → K) (v : Pt K) (o o' : Flow K) (n : Nat) (x y : List K) :
    Sim (fun a b => ∃ s s', a = { o with dst := some s } ∧ b = { o' with dst := some s' } ∧ MovedDst v s s') (o.setDstGrid pert n x y)
      (o'.setDstGrid pert n (x.map (· + v.1)) (y.map (· + v.2))) := by
  unfold Flow.setDstGrid
  have h := sim_copy (fun _ => True) trivial v n x y (pert n 0) (pert n 1) (fun _ _ _ => ⟨trivial, trivial⟩) fun _ _ _ => ⟨trivial, trivial⟩
  rw [← bind_assoc, ← bind_assoc]
  exact sim_bind h fun a b hab => sim_pure ⟨_, _, rfl, rfl, hab.1, rfl⟩

theorem lineCoord_mv {v : Pt K} {a b : Dst K} (h : MovedDst v a b) (i : Nat) : Sim (fun r r' => r' = (mv v r.1, mv v r.2)) (a.lineCoord i) (b.lineCoord i) := by
  have key : ∀ n : Nat, Sim (fun p q => q = mv v p) (nodeCoord a.coords (n : Int)) (nodeCoord b.coords (n : Int)) := by
    intro n
    unfold nodeCoord
    have e0 : ((n : Int) * 2 + 0).toNat = n * 2 + 0 := by omega
    have e1 : ((n : Int) * 2 + 1).toNat = n * 2 + 1 := by omega
    unfold vgetI
    rw [e0, e1]
    rw [if_pos (by omega), if_pos (by omega), if_pos (by omega), if_pos (by omega)]
    refine sim_bind (sim_vget_moved h.coords _) ?_
    rintro x _ rfl
    refine sim_bind (sim_vget_moved h.coords _) ?_
    rintro y _ rfl
    rw [comp2_even, comp2_odd]
    exact sim_pure rfl
  refine sim_bind (key _) ?_
  rintro p _ rfl
  refine sim_bind (key _) ?_
  rintro q _ rfl
  exact sim_pure rfl

/-- Points that correspond and are in range. -/
def PtR (v p q : Pt K) : Prop := q = mv v p ∧ (∀ k, InR (comp p k)) ∧ ∀ k, InR (comp q k)

theorem sim_vget_in {P : K → Prop} {s : Nat → K} {l l' : List K} (h : MovedIn P s l l') (i : Nat) : Sim (fun a b => b = a + s i ∧ P a ∧ P b) (vget l i) (vget l' i) :=
  sim_vget i (fun a e => ⟨a + s i, by rw [h.1 i, e]; rfl, rfl, h.2.1 a (List.mem_of_getElem? e), h.2.2 _ (List.mem_of_getElem? (by rw [h.1 i, e]; rfl))⟩)
    fun e => by rw [h.1 i, e]; rfl

theorem srcNodeCoord_mv {v : Pt K} {l l' : List K} (h : MovedIn InR (comp2 v) l l') (n : Int) : Sim (PtR v) (srcNodeCoord l n) (srcNodeCoord l' n) := by
  unfold srcNodeCoord imul chk
  by_cases h0 : inI32 (n * 2)
  swap
  · rw [if_neg h0]; exact sim_error _
  rw [if_pos h0]
  change Sim _ (do
      let x ← vgetI l (n * 2 + 0)
      let y ← vgetI l (n * 2 + 1)
      return (x, y)) (do
      let x ← vgetI l' (n * 2 + 0)
      let y ← vgetI l' (n * 2 + 1)
      return (x, y))
  unfold vgetI
  by_cases hn : 0 ≤ n
  swap
  · rw [if_neg (by omega), if_neg (by omega), if_neg (by omega), if_neg (by omega)]; exact sim_error _
  obtain ⟨m, rfl⟩ := Int.eq_ofNat_of_zero_le hn
  have e0 : ((m : Int) * 2 + 0).toNat = m * 2 + 0 := by omega
  have e1 : ((m : Int) * 2 + 1).toNat = m * 2 + 1 := by omega
  rw [e0, e1]
  rw [if_pos (by omega), if_pos (by omega), if_pos (by omega), if_pos (by omega)]
  refine sim_bind (sim_vget_in h _) ?_
  rintro x _ ⟨rfl, hx, hx'⟩
  refine sim_bind (sim_vget_in h _) ?_
  rintro y _ ⟨rfl, hy, hy'⟩
  rw [comp2_even] at hx' ⊢
  rw [comp2_odd] at hy' ⊢
  refine sim_pure ⟨rfl, fun k => ?_, fun k => ?_⟩
  · match k with
    | 0 => exact hx
    | 1 => exact hy
  · match k with
    | 0 => exact hx'
    | 1 => exact hy'

theorem srcQuad_mv {v : Pt K} {a b : Src K} (h : MovedSrc v a b) (i : Nat) : Sim (fun q q' => q' = mvQuad v q ∧ PtR v (q 0) (q' 0)) (a.quadCoord i) (b.quadCoord i) := by
  have key : ∀ c0 c1 k, Sim (PtR v) (a.corner c0 c1 k) (b.corner c0 c1 k) := by
    intro c0 c1 k
    unfold Src.corner
    rw [h.nodeIt]
    exact sim_bind_eq fun i0 => sim_bind_eq fun i1 => sim_bind_eq fun n => srcNodeCoord_mv h.coords n
  unfold Src.quadCoord
  rw [h.cellIt]
  refine sim_bind_eq fun inds => sim_bind_eq fun c0 => sim_bind_eq fun c1 => ?_
  refine sim_bind (key c0 c1 0) fun p0 p0' h0 => sim_bind (key c0 c1 1) fun p1 p1' h1 => sim_bind (key c0 c1 2) fun p2 p2' h2 => sim_bind (key c0 c1 3) fun p3 p3' h3 => ?_
  refine sim_pure ⟨?_, h0⟩
  funext j
  match j with
  | 0 => exact h0.1
  | 1 => exact h1.1
  | 2 => exact h2.1
  | 3 => exact h3.1

structure WorkR (v : Pt K) (w w' : FlowInterp.Work K) : Prop where
  isect : w'.isect = mvLine v w.isect
  proj : FlowsR v w.proj w'.proj
  weights : w'.weights = w.weights

theorem flowStep_mv (g : Gels K) (hg : KeepsSizes g) (srt : List K → List K) {v : Pt K} {src src' : Src K} (h : MovedSrc v src src') (di si : Nat) {w w' : FlowInterp.Work K}
    (hw : WorkR v w w') : Sim (WorkR v) (FlowInterp.srcStep g srt src di si w) (FlowInterp.srcStep g srt src' di si w') := by
  unfold FlowInterp.srcStep
  refine sim_bind (srcQuad_mv h si) ?_
  rintro q _ ⟨rfl, hq⟩
  dsimp only
  have e : w'.isect.reset.setQuadPoints (mvQuad v q) = mvLine v (w.isect.reset.setQuadPoints q) := by
    rw [hw.isect, ← setQuad_mv]
    rfl
  rw [e, overlap_mv]
  refine sim_bind_eq fun ov => ?_
  by_cases ho : (!ov) = true
  · rw [if_pos ho, if_pos ho]
    exact sim_pure ⟨rfl, hw.proj, hw.weights⟩
  rw [if_neg ho, if_neg ho]
  refine sim_bind (collect_mv v g srt _) ?_
  rintro ⟨is, pts⟩ _ rfl
  dsimp only
  rw [List.length_map]
  split_ifs
  · obtain ⟨h1, h2⟩ := setQuadPoints_mv hw.proj q hq.2.1 hq.2.2
    refine sim_bind (pieces_mv g hg pts h1 h2) ?_
    rintro ⟨f, p⟩ ⟨f', p'⟩ ⟨h3, h4⟩
    dsimp only at h3 h4 ⊢
    subst h4
    exact sim_pure ⟨rfl, h3, by dsimp only; rw [hw.weights]⟩
  · exact sim_pure ⟨rfl, hw.proj, hw.weights⟩

theorem flowDst_mv (g : Gels K) (hg : KeepsSizes g) (srt : List K → List K) {v : Pt K} {src src' : Src K} (h : MovedSrc v src src') {dst dst' : Dst K} (hd : MovedDst v dst dst')
    (di : Nat) {w w' : FlowInterp.Work K} (hw : WorkR v w w') : Sim (WorkR v) (FlowInterp.dstStep g srt src dst di w) (FlowInterp.dstStep g srt src' dst' di w') := by
  unfold FlowInterp.dstStep
  refine sim_bind (lineCoord_mv hd di) ?_
  rintro ⟨a, b⟩ _ rfl
  dsimp only
  rw [h.numCells]
  refine sim_forN' _ ⟨?_, hw.proj, hw.weights⟩ fun i w w' _ hw => flowStep_mv g hg srt h di i hw
  dsimp only
  rw [hw.isect, setLine_mv]

theorem flowsNew_mv (v : Pt K) : FlowsR v Flows.new Flows.new :=
  ⟨⟨fun _ => 0, rfl⟩, rfl, rfl, rfl⟩

theorem flowCompute_mv (g : Gels K) (hg : KeepsSizes g) (srt : List K → List K) {v : Pt K} {src src' : Src K} (h : MovedSrc v src src') {dst dst' : Dst K} (hd : MovedDst v dst dst')
    (w : FlowInterp.Weights K) : Sim (fun a b => ∃ t, a = ⟨some src, some dst, t⟩ ∧ b = ⟨some src', some dst', t⟩)
      (({ src := some src, dst := some dst, weights := w } : Flow K).computeWeights g srt) (({ src := some src', dst := some dst', weights := w } : Flow K).computeWeights g srt) := by
  unfold Flow.computeWeights
  dsimp only
  rw [hd.numCells]
  refine sim_bind (R := WorkR v) (sim_forN' _ ⟨rfl, flowsNew_mv v, rfl⟩ fun i w w' _ hw => flowDst_mv g hg srt h hd i hw) fun a b hab => ?_
  exact sim_pure ⟨a.weights, rfl, by rw [hab.weights]⟩

/-- `apply` looks at the numbers of cells and sides only. -/
theorem flowApply_mv {v : Pt K} {src src' : Src K} (h : MovedSrc v src src') (d d' : Option (Dst K)) (t : FlowInterp.Weights K) (x y r : List K) :
    (⟨some src', d', t⟩ : Flow K).apply x y r = (⟨some src, d, t⟩ : Flow K).apply x y r := by
  unfold Flow.apply sideStep
  simp only [h.cellIt, h.edgeIt0, h.edgeIt1]

end Sg.Shift
