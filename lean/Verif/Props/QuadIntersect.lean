import Verif.Proof.QuadIntersectExact
import Verif.Props.LinearSolve
import Mathlib.Analysis.Normed.Affine.Convex
/-
Properties C50-C55 of the intersection of two quadrilaterals.  `g` is the linear algebra library.
-/
namespace Sg.Props
open Sg Sg.QuadIntersect Sg.LinearSolve Sg.Triangulate Sg.Spec Sg.Plane

/-! ### Histories -/

section history
variable {F : Type} [Zero F] [One F] [Add F] [Sub F] [Mul F] [Div F] [Neg F] [LT F] [DecidableLT F] [LE F] [DecidableLE F]
  [NatCast F]

/-- What can be done with an intersector. -/
inductive IsectOp (F : Type) where
  | reset
  | set (q1 q2 : Quad F)
  | pair (q1 q2 : Quad F)
  | again
  | inTriangle (pt n0 n1 n2 : Pt F)
  | inCell (pt : Pt F) (q : Quad F)

/-- One operation; `again` collects without setting quadrilaterals. -/
def IsectOp.exec (g : Gels F) (s : Isect F) : IsectOp F → Cxx (Isect F)
  | .reset => .ok s.reset
  | .set q1 q2 => .ok (s.setQuadPoints q1 q2)
  | .pair q1 q2 => do
    let (s, _) ← (s.setQuadPoints q1 q2).collectIntersectPoints g
    return s
  | .again => do
    let (s, _) ← s.collectIntersectPoints g
    return s
  | .inTriangle pt n0 n1 n2 => do
    let (sl, _) ← checkIfPointIsInsideTriangle g s.slvr pt n0 n1 n2
    return { s with slvr := sl }
  | .inCell pt q => do
    let (sl, _) ← isPointInCell g s.slvr pt q
    return { s with slvr := sl }

def runIsect (g : Gels F) : Isect F → List (IsectOp F) → Cxx (Isect F)
  | s, [] => .ok s
  | s, o :: os => do
    let s ← o.exec g s
    runIsect g s os

/-- States of an intersector that was created and used in any way. -/
def Reached (g : Gels F) (s : Isect F) : Prop := ∃ h, runIsect g Isect.new h = .ok s

theorem exec_ready (g : Gels F) (hg : KeepsSizes g) (s : Isect F) (hs : Ready s.slvr) (o : IsectOp F) (s' : Isect F)
    (h : o.exec g s = .ok s') : Ready s'.slvr := by
  cases o with
  | reset => cases h; exact hs
  | set q1 q2 => cases h; exact hs
  | pair q1 q2 =>
    obtain ⟨sl, e, r⟩ := collect_ok g hg (s.setQuadPoints q1 q2) hs q1 q2 rfl rfl
    simp only [IsectOp.exec, e, bind, Except.bind, pure, Except.pure] at h
    cases h; exact r
  | again =>
    cases h1 : s.quad1 with
    | none => simp [IsectOp.exec, Isect.collectIntersectPoints, h1, bind, Except.bind] at h
    | some q1 =>
      cases h2 : s.quad2 with
      | none => simp [IsectOp.exec, Isect.collectIntersectPoints, h1, h2, bind, Except.bind] at h
      | some q2 =>
        obtain ⟨sl, e, r⟩ := collect_ok g hg s hs q1 q2 h1 h2
        simp only [IsectOp.exec, e, bind, Except.bind, pure, Except.pure] at h
        cases h; exact r
  | inTriangle pt n0 n1 n2 =>
    obtain ⟨sl, e, r⟩ := inTri_ok g hg s.slvr hs pt n0 n1 n2
    simp only [IsectOp.exec, e, bind, Except.bind, pure, Except.pure] at h
    cases h; exact r
  | inCell pt q =>
    obtain ⟨sl, e, r⟩ := inCell_ok g hg s.slvr hs pt q
    simp only [IsectOp.exec, e, bind, Except.bind, pure, Except.pure] at h
    cases h; exact r

theorem run_ready (g : Gels F) (hg : KeepsSizes g) : ∀ (h : List (IsectOp F)) (s s' : Isect F), Ready s.slvr →
    runIsect g s h = .ok s' → Ready s'.slvr
  | [], s, s', hs, e => by cases e; exact hs
  | o :: os, s, s', hs, e => by
    unfold runIsect at e
    cases h1 : o.exec g s with
    | error x => rw [h1] at e; cases e
    | ok s1 =>
      rw [h1] at e
      exact run_ready g hg os s1 s' (exec_ready g hg s hs o s1 h1) e

theorem reached_ready {g : Gels F} (hg : KeepsSizes g) {s : Isect F} (h : Reached g s) : Ready s.slvr := by
  obtain ⟨os, h⟩ := h
  exact run_ready g hg os _ _ ready_new h

theorem reached_new (g : Gels F) : Reached g (Isect.new : Isect F) := ⟨[], rfl⟩

end history

/-! ### C50 -/

section box
variable {K : Type} [Field K] [LinearOrder K]

theorem stdMin_eq (a b : K) : stdMin a b = min a b := by
  unfold stdMin
  split
  · rename_i h; rw [min_eq_right h.le]
  · rename_i h; rw [min_eq_left (not_lt.mp h)]

theorem stdMax_eq (a b : K) : stdMax a b = max a b := by
  unfold stdMax
  split
  · rename_i h; rw [max_eq_right h.le]
  · rename_i h; rw [max_eq_left (not_lt.mp h)]

theorem quadMin_le_iff (q : Fin 4 → K) (x : K) : quadMin q ≤ x ↔ ∃ i, q i ≤ x := by
  unfold quadMin
  simp only [stdMin_eq, min_le_iff, Fin.exists_fin_succ, IsEmpty.exists_iff]
  show _ ↔ (q 0 ≤ x ∨ q 1 ≤ x ∨ q 2 ≤ x ∨ q 3 ≤ x ∨ False)
  tauto

theorem le_quadMax_iff (q : Fin 4 → K) (x : K) : x ≤ quadMax q ↔ ∃ i, x ≤ q i := by
  unfold quadMax
  simp only [stdMax_eq, le_max_iff, Fin.exists_fin_succ, IsEmpty.exists_iff]
  show _ ↔ (x ≤ q 0 ∨ x ≤ q 1 ∨ x ≤ q 2 ∨ x ≤ q 3 ∨ False)
  tauto

theorem axisOverlap_iff (q1 q2 : Fin 4 → K) : axisOverlap q1 q2 = true ↔
    ∃ x, (∃ i, q1 i ≤ x) ∧ (∃ i, x ≤ q1 i) ∧ (∃ i, q2 i ≤ x) ∧ ∃ i, x ≤ q2 i := by
  unfold axisOverlap
  simp only [decide_eq_true_eq, stdMin_eq, stdMax_eq, le_min_iff, max_le_iff, ← quadMin_le_iff, ← le_quadMax_iff]
  constructor
  · rintro ⟨⟨h1, h2⟩, h3, h4⟩
    exact ⟨max (quadMin q1) (quadMin q2), le_max_left _ _, max_le h1 h2, le_max_right _ _, max_le h3 h4⟩
  · rintro ⟨x, h1, h2, h3, h4⟩
    exact ⟨⟨h1.trans h2, h3.trans h2⟩, h1.trans h4, h3.trans h4⟩

/-- C50: the answer is yes exactly if the bounding boxes have a point in common: one whose coordinates are between the
smallest and the largest ones of each quadrilateral. -/
theorem C50_box_exact (s : Isect K) (q1 q2 : Quad K) :
    ∃ b, (s.setQuadPoints q1 q2).checkIfBoxesOverlap = .ok b ∧
      (b = true ↔ ∃ x y, ((∃ i, (q1 i).1 ≤ x) ∧ (∃ i, x ≤ (q1 i).1) ∧ (∃ i, (q2 i).1 ≤ x) ∧ ∃ i, x ≤ (q2 i).1) ∧
        (∃ i, (q1 i).2 ≤ y) ∧ (∃ i, y ≤ (q1 i).2) ∧ (∃ i, (q2 i).2 ≤ y) ∧ ∃ i, y ≤ (q2 i).2) := by
  refine ⟨boxesOverlap q1 q2, rfl, ?_⟩
  unfold boxesOverlap
  rw [Bool.and_eq_true, axisOverlap_iff, axisOverlap_iff]
  constructor
  · rintro ⟨⟨x, hx⟩, y, hy⟩
    exact ⟨x, y, hx, hy⟩
  · rintro ⟨x, y, hx, hy⟩
    exact ⟨⟨x, hx⟩, y, hy⟩

/-- C50: symmetry. -/
theorem C50_box_symmetric (s s' : Isect K) (q1 q2 : Quad K) :
    (s.setQuadPoints q1 q2).checkIfBoxesOverlap = (s'.setQuadPoints q2 q1).checkIfBoxesOverlap := by
  show Except.ok _ = Except.ok _
  congr 1
  rw [Bool.eq_iff_iff]
  unfold boxesOverlap
  simp only [Bool.and_eq_true, axisOverlap_iff]
  constructor
  · rintro ⟨⟨x, a, b, c, d⟩, y, e, f, g, h⟩; exact ⟨⟨x, c, d, a, b⟩, y, g, h, e, f⟩
  · rintro ⟨⟨x, a, b, c, d⟩, y, e, f, g, h⟩; exact ⟨⟨x, c, d, a, b⟩, y, g, h, e, f⟩

end box

/-- A coordinate of a point of the hull is between the smallest and the largest one. -/
theorem hull_between {q : Fin 4 → P2} {p : P2} (hp : p ∈ quadRegion q) :
    ((∃ i, (q i).1 ≤ p.1) ∧ ∃ i, p.1 ≤ (q i).1) ∧ (∃ i, (q i).2 ≤ p.2) ∧ ∃ i, p.2 ≤ (q i).2 := by
  have key : ∀ f : P2 →ₗ[ℝ] ℝ, ∃ i, f (q i) ≤ f p := by
    intro f
    by_contra hcon
    push Not at hcon
    have hsub : quadRegion q ⊆ {x | f p < f x} :=
      convexHull_min (by rintro _ ⟨i, rfl⟩; exact hcon i) (convex_halfSpace_gt f.isLinear (f p))
    exact lt_irrefl (f p) (hsub hp)
  refine ⟨⟨?_, ?_⟩, ?_, ?_⟩
  · exact key (LinearMap.fst ℝ ℝ ℝ)
  · obtain ⟨i, h⟩ := key (-(LinearMap.fst ℝ ℝ ℝ))
    exact ⟨i, by simpa using h⟩
  · exact key (LinearMap.snd ℝ ℝ ℝ)
  · obtain ⟨i, h⟩ := key (-(LinearMap.snd ℝ ℝ ℝ))
    exact ⟨i, by simpa using h⟩

/-- C50: quadrilaterals with a common point are never rejected. -/
theorem C50_box_keeps_overlaps (s : Isect ℝ) (q1 q2 : Quad ℝ) (p : ℝ × ℝ) (h1 : p ∈ quadRegion q1) (h2 : p ∈ quadRegion q2) :
    (s.setQuadPoints q1 q2).checkIfBoxesOverlap = .ok true := by
  obtain ⟨b, e, h⟩ := C50_box_exact s q1 q2
  rw [e, h.mpr ⟨p.1, p.2, ⟨(hull_between h1).1.1, (hull_between h1).1.2, (hull_between h2).1.1, (hull_between h2).1.2⟩,
    (hull_between h1).2.1, (hull_between h1).2.2, (hull_between h2).2.1, (hull_between h2).2.2⟩]

/-! ### C51 -/

section field
variable {K : Type} [Field K] [LinearOrder K]

/-- C51: for a triangle with non-zero area, of either orientation, and an intersector used in any way before, a point
with barycentric coordinates `u`, `v`, `w` is accepted exactly if these are within the tolerance. -/
theorem C51_triangle_exact [IsStrictOrderedRing K] (g : Gels K) (hg : GelsContract g) (s : Isect K) (hs : Reached g s)
    (pt n0 n1 n2 : Pt K)
    (harea : (n1.1 - n0.1) * (n2.2 - n0.2) - (n1.2 - n0.2) * (n2.1 - n0.1) ≠ 0) (u v w : K) (hsum : u + v + w = 1)
    (hx : pt.1 = u * n0.1 + v * n1.1 + w * n2.1) (hy : pt.2 = u * n0.2 + v * n1.2 + w * n2.2) :
    ∃ sl b, checkIfPointIsInsideTriangle g s.slvr pt n0 n1 n2 = .ok (sl, b) ∧
      (b = true ↔ -(1 / 10 ^ 12) ≤ u ∧ -(1 / 10 ^ 12) < v ∧ v ≤ 1 + 1 / 10 ^ 12 ∧ -(1 / 10 ^ 12) < w) := by
  obtain ⟨sl, e, -⟩ := inTri_ok g (keepsSizes hg) s.slvr (reached_ready (keepsSizes hg) hs) pt n0 n1 n2
  refine ⟨sl, _, e, ?_⟩
  rw [inTri_iff hg (by simpa [cross] using harea) hsum hx hy]
  have ht : (tol : K) = 1 / 10 ^ 12 := by unfold tol; norm_num
  rw [ht]
  have hu : u = 1 - (v + w) := by linear_combination hsum
  constructor
  · rintro ⟨h1, h2, h3, h4⟩; exact ⟨by rw [hu]; linarith, h1, h2, h3⟩
  · rintro ⟨h1, h2, h3, h4⟩; exact ⟨h2, h3, h4, by rw [hu] at h1; linarith⟩

/-- C51: every point of the closed triangle is accepted. -/
theorem C51_triangle_closed [IsStrictOrderedRing K] (g : Gels K) (hg : GelsContract g) (s : Isect K) (hs : Reached g s)
    (pt n0 n1 n2 : Pt K)
    (harea : (n1.1 - n0.1) * (n2.2 - n0.2) - (n1.2 - n0.2) * (n2.1 - n0.1) ≠ 0) (u v w : K) (hsum : u + v + w = 1)
    (h0 : 0 ≤ u ∧ 0 ≤ v ∧ 0 ≤ w)
    (hx : pt.1 = u * n0.1 + v * n1.1 + w * n2.1) (hy : pt.2 = u * n0.2 + v * n1.2 + w * n2.2) :
    ∃ sl, checkIfPointIsInsideTriangle g s.slvr pt n0 n1 n2 = .ok (sl, true) := by
  obtain ⟨sl, b, e, h⟩ := C51_triangle_exact g hg s hs pt n0 n1 n2 harea u v w hsum hx hy
  have ht : (0 : K) < 1 / 10 ^ 12 := by positivity
  rw [h.mpr ⟨by linarith, by linarith, by linarith, by linarith⟩] at e
  exact ⟨sl, e⟩

/-- C51, partial: a triangle without area contains nothing, if its nodes are not all the same point. -/
theorem C51_triangle_degenerate_partial (g : Gels K) (hg : GelsContract g) (s : Isect K) (hs : Reached g s) (pt n0 n1 n2 : Pt K)
    (hne : ¬ (n0 = n1 ∧ n0 = n2))
    (harea : (n1.1 - n0.1) * (n2.2 - n0.2) - (n1.2 - n0.2) * (n2.1 - n0.1) = 0) :
    ∃ sl, checkIfPointIsInsideTriangle g s.slvr pt n0 n1 n2 = .ok (sl, false) := by
  obtain ⟨sl, e, -⟩ := inTri_ok g (keepsSizes hg) s.slvr (reached_ready (keepsSizes hg) hs) pt n0 n1 n2
  rw [inTri_degenerate hg hne (by simpa [cross] using harea)] at e
  exact ⟨sl, e⟩

/-- C51 (refuted for a point): a triangle whose three nodes are the same point is said to contain every point of the plane. -/
theorem C51_point_refuted [IsStrictOrderedRing K] (g : Gels K) (hg : GelsContract g) (s : Isect K) (hs : Reached g s) (pt n : Pt K) :
    ∃ sl, checkIfPointIsInsideTriangle g s.slvr pt n n n = .ok (sl, true) := by
  obtain ⟨sl, e, -⟩ := inTri_ok g (keepsSizes hg) s.slvr (reached_ready (keepsSizes hg) hs) pt n n n
  rw [inTri_point hg] at e
  exact ⟨sl, e⟩

/-- A library, a state and a clockwise triangle for C51. -/
example : ∃ (g : Gels ℚ) (_ : GelsContract g) (s : Isect ℚ) (_ : Reached g s),
    ∃ sl, checkIfPointIsInsideTriangle g s.slvr (1/2, 1/2) (0, 0) (0, 1) (1, 0) = .ok (sl, true) :=
  ⟨refGels, refGels_contract, Isect.new, reached_new _,
    C51_triangle_closed refGels refGels_contract Isect.new (reached_new _) _ _ _ _ (by norm_num) 0 (1/2) (1/2) (by norm_num)
      (by norm_num) (by norm_num) (by norm_num)⟩

end field

/-! ### C52 -/

/-- Moving a point of the enlarged triangle into the triangle. -/
theorem pull_back {a b c p : P2} {u v w t : ℝ} (ht : 0 < t) (hsum : u + v + w = 1) (hp : p = u • a + v • b + w • c)
    (hu : -t ≤ u) (hv : -t ≤ v) (hw : -t ≤ w) (D : ℝ) (hD : ∀ x ∈ ({a, b, c} : Set P2), ∀ y ∈ ({a, b, c} : Set P2), dist x y ≤ D) :
    ∃ p' ∈ tri a b c, dist p p' ≤ 3 * t * D := by
  have h3 : (0 : ℝ) < 1 + 3 * t := by linarith
  set p' : P2 := ((u + t) / (1 + 3 * t)) • a + ((v + t) / (1 + 3 * t)) • b + ((w + t) / (1 + 3 * t)) • c with hp'
  set m : P2 := (1 / 3 : ℝ) • a + (1 / 3 : ℝ) • b + (1 / 3 : ℝ) • c with hm
  have hmem : p' ∈ tri a b c :=
    mem_tri _ _ _ (div_nonneg (by linarith) h3.le) (div_nonneg (by linarith) h3.le) (div_nonneg (by linarith) h3.le)
      (by field_simp; linarith) rfl
  have hmm : m ∈ tri a b c := mem_tri _ _ _ (by norm_num) (by norm_num) (by norm_num) (by norm_num) rfl
  refine ⟨p', hmem, ?_⟩
  have e : p - p' = (3 * t) • (p' - m) := by
    rw [hp, hp', hm]
    ext
    · simp only [Prod.fst_sub, Prod.fst_add, Prod.smul_fst, smul_eq_mul]; field_simp; ring
    · simp only [Prod.snd_sub, Prod.snd_add, Prod.smul_snd, smul_eq_mul]; field_simp; ring
  have hd : dist p' m ≤ D := by
    obtain ⟨x, hx, y, hy, hxy⟩ := convexHull_exists_dist_ge2 (s := {a, b, c}) (t := {a, b, c}) hmem hmm
    exact hxy.trans (hD x hx y hy)
  rw [dist_eq_norm, e, norm_smul, ← dist_eq_norm, Real.norm_of_nonneg (by linarith)]
  exact mul_le_mul_of_nonneg_left hd (by linarith)

/-- C52: every point of a convex quadrilateral is accepted. -/
theorem C52_cell_accepts (g : Gels ℝ) (hg : GelsContract g) (s : Isect ℝ) (hs : Reached g s) (q : Quad ℝ)
    (hq : ConvexQuad q) (p : ℝ × ℝ) (hp : p ∈ quadRegion q) :
    ∃ sl, isPointInCell g s.slvr p q = .ok (sl, true) := by
  obtain ⟨sl, e, -⟩ := inCell_ok g (keepsSizes hg) s.slvr (reached_ready (keepsSizes hg) hs) p q
  rw [inCell_of_mem hg hq hp] at e
  exact ⟨sl, e⟩

/-- C52: an accepted point is at a distance of at most 3e-12 times the diameter from the quadrilateral, in each
coordinate (convexity is not needed, but none of the two triangles of the quadrilateral may be a point). -/
theorem C52_cell_rejects (g : Gels ℝ) (hg : GelsContract g) (s : Isect ℝ) (hs : Reached g s) (q : Quad ℝ)
    (hq : ¬ (q 0 = q 1 ∧ q 0 = q 3) ∧ ¬ (q 2 = q 3 ∧ q 2 = q 1))
    (p : ℝ × ℝ) (D : ℝ) (hD : ∀ i j, dist (q i) (q j) ≤ D)
    (sl : Solver ℝ) (h : isPointInCell g s.slvr p q = .ok (sl, true)) :
    ∃ p' ∈ quadRegion q, |p.1 - p'.1| ≤ 3 / 10 ^ 12 * D ∧ |p.2 - p'.2| ≤ 3 / 10 ^ 12 * D := by
  obtain ⟨sl', e, -⟩ := inCell_ok g (keepsSizes hg) s.slvr (reached_ready (keepsSizes hg) hs) p q
  rw [e] at h
  have h : inCell g p q = true := by injection h with h; exact (Prod.mk.inj h).2
  have key : ∀ i j k : Fin 4, ¬ (q i = q j ∧ q i = q k) → inTri g p (q i) (q j) (q k) = true →
      ∃ p' ∈ quadRegion q, |p.1 - p'.1| ≤ 3 / 10 ^ 12 * D ∧ |p.2 - p'.2| ≤ 3 / 10 ^ 12 * D := by
    intro i j k hnd hi
    obtain ⟨_, u, v, w, hsum, hpe, hu, hv, hw⟩ := bary_of_inTri hg hnd hi
    rw [tol_real] at hu hv hw
    obtain ⟨p', hp', hd⟩ := pull_back (by norm_num) hsum hpe hu hv.le hw.le D (by
      rintro x (rfl | rfl | rfl) y (rfl | rfl | rfl) <;> exact hD _ _)
    have hd' : dist p p' ≤ 3 / 10 ^ 12 * D := by
      refine hd.trans (le_of_eq ?_); norm_num
    rw [Prod.dist_eq, max_le_iff, Real.dist_eq, Real.dist_eq] at hd'
    exact ⟨p', tri_sub_region q i j k hp', hd'⟩
  unfold inCell at h
  rw [Bool.or_eq_true] at h
  rcases h with h | h
  · exact key _ _ _ hq.1 h
  · exact key _ _ _ hq.2 h

/-- C52 (refuted for collapsed cells): if one of the two triangles of the quadrilateral is a point, every point of the plane is
accepted. -/
theorem C52_collapsed_refuted (g : Gels ℝ) (hg : GelsContract g) (s : Isect ℝ) (hs : Reached g s) (q : Quad ℝ)
    (hq : (q 0 = q 1 ∧ q 0 = q 3) ∨ (q 2 = q 3 ∧ q 2 = q 1)) (p : ℝ × ℝ) :
    ∃ sl, isPointInCell g s.slvr p q = .ok (sl, true) := by
  obtain ⟨sl, e, -⟩ := inCell_ok g (keepsSizes hg) s.slvr (reached_ready (keepsSizes hg) hs) p q
  have : inCell g p q = true := by
    unfold inCell
    rw [Bool.or_eq_true]
    rcases hq with ⟨h1, h2⟩ | ⟨h1, h2⟩
    · left; rw [← h1, ← h2]; exact inTri_point hg
    · right; rw [← h1, ← h2]; exact inTri_point hg
  rw [this] at e
  exact ⟨sl, e⟩

/-- For instance the far point `(1000, 1000)` and a quadrilateral with three equal nodes. -/
example : ∃ sl, isPointInCell refGels (Isect.new : Isect ℝ).slvr (1000, 1000) ![(0, 0), (0, 0), (1, 1), (0, 0)] = .ok (sl, true) :=
  C52_collapsed_refuted _ refGels_contract _ (reached_new _) _ (Or.inl ⟨rfl, rfl⟩) _

/-- C52: for a convex quadrilateral and a point that is not within the tolerance of a side of its two triangles, the test
is exact. -/
theorem C52_cell_exact (g : Gels ℝ) (hg : GelsContract g) (s : Isect ℝ) (hs : Reached g s) (q : Quad ℝ)
    (hq : ConvexQuad q) (p : ℝ × ℝ) (hc : ClearOfSides (q 0) (q 1) (q 3) p ∧ ClearOfSides (q 2) (q 3) (q 1) p) :
    ∃ sl b, isPointInCell g s.slvr p q = .ok (sl, b) ∧ (b = true ↔ p ∈ quadRegion q) := by
  obtain ⟨sl, e, -⟩ := inCell_ok g (keepsSizes hg) s.slvr (reached_ready (keepsSizes hg) hs) p q
  exact ⟨sl, _, e, inCell_iff hg hq hc⟩

/-! ### C53, C54 -/

/-- What a new object, or one that was reset, returns for a pair. -/
theorem collect_fresh {g : Gels ℝ} (hg : GelsContract g) {s : Isect ℝ} (hs : Reached g s) (hp : s.pts = []) (q1 q2 : Quad ℝ) :
    ∃ s', (s.setQuadPoints q1 q2).collectIntersectPoints g = .ok (s', collected g q1 q2) := by
  obtain ⟨sl, e, -⟩ := collect_ok g (keepsSizes hg) (s.setQuadPoints q1 q2)
    (show Ready s.slvr from reached_ready (keepsSizes hg) hs) q1 q2 rfl rfl
  rw [show (s.setQuadPoints q1 q2).pts = [] from hp, List.nil_append] at e
  exact ⟨_, e⟩

/-- C53: the points that an object without earlier points returns lie in both quadrilaterals, and so does their hull. -/
theorem C53_points_in_both (g : Gels ℝ) (hg : GelsContract g) (s : Isect ℝ) (hs : Reached g s) (hempty : s.pts = [])
    (q1 q2 : Quad ℝ) (h1 : ConvexQuad q1) (h2 : ConvexQuad q2) (hc : ClearPair q1 q2) :
    ∃ s' pts, (s.setQuadPoints q1 q2).collectIntersectPoints g = .ok (s', pts) ∧
      (∀ p ∈ pts, p ∈ quadRegion q1 ∧ p ∈ quadRegion q2) ∧
      convexHull ℝ (ptsOf pts) ⊆ quadRegion q1 ∩ quadRegion q2 := by
  obtain ⟨s', e⟩ := collect_fresh hg hs hempty q1 q2
  have hsub : ptsOf (collected g q1 q2) ⊆ quadRegion q1 ∩ quadRegion q2 := by
    rw [collected_eq hg h1 h2 hc]; exact corner_sub
  exact ⟨s', _, e, fun p hp => hsub hp,
    convexHull_min hsub ((convex_convexHull ℝ _).inter (convex_convexHull ℝ _))⟩

/-- C53: exactly these points are returned: the nodes of each quadrilateral that lie in the other one, and the crossings
of their edges. -/
theorem C53_points_exact (g : Gels ℝ) (hg : GelsContract g) (s : Isect ℝ) (hs : Reached g s) (hempty : s.pts = [])
    (q1 q2 : Quad ℝ) (h1 : ConvexQuad q1) (h2 : ConvexQuad q2) (hc : ClearPair q1 q2) :
    ∃ s' pts, (s.setQuadPoints q1 q2).collectIntersectPoints g = .ok (s', pts) ∧ ptsOf pts = cornerPoints q1 q2 := by
  obtain ⟨s', e⟩ := collect_fresh hg hs hempty q1 q2
  exact ⟨s', _, e, collected_eq hg h1 h2 hc⟩

/-- C54: the hull of the returned points is the intersection. -/
theorem C54_hull_is_intersection (g : Gels ℝ) (hg : GelsContract g) (s : Isect ℝ) (hs : Reached g s) (hempty : s.pts = [])
    (q1 q2 : Quad ℝ) (h1 : ConvexQuad q1) (h2 : ConvexQuad q2) (hc : ClearPair q1 q2) :
    ∃ s' pts, (s.setQuadPoints q1 q2).collectIntersectPoints g = .ok (s', pts) ∧
      convexHull ℝ (ptsOf pts) = quadRegion q1 ∩ quadRegion q2 := by
  obtain ⟨s', e⟩ := collect_fresh hg hs hempty q1 q2
  refine ⟨s', _, e, ?_⟩
  rw [collected_eq hg h1 h2 hc]
  exact hull_corner h1 h2 (corner_finite hg h1 h2 hc)

/-! ### Quadrilaterals that meet the hypotheses -/

/-- A quadrilateral with integer nodes. -/
def zquad (z : Fin 4 → ℤ × ℤ) : Quad ℝ := fun i => ((z i).1, (z i).2)

/-- Twice the area of a triangle with integer nodes. -/
def zcross (p q r : ℤ × ℤ) : ℤ := (q.1 - p.1) * (r.2 - p.2) - (q.2 - p.2) * (r.1 - p.1)

/-- Convexity in integers, which can be decided. -/
def ZConvex (z : Fin 4 → ℤ × ℤ) : Prop :=
  ((∀ i, 0 ≤ zcross (z i) (z (i + 1)) (z (i + 2))) ∨ (∀ i, zcross (z i) (z (i + 1)) (z (i + 2)) ≤ 0)) ∧
  ∃ i, zcross (z i) (z (i + 1)) (z (i + 2)) ≠ 0

instance (z : Fin 4 → ℤ × ℤ) : Decidable (ZConvex z) := by unfold ZConvex; infer_instance

/-- All the coordinates are between 0 and 1000. -/
def ZSmall (z : Fin 4 → ℤ × ℤ) : Prop := ∀ i, 0 ≤ (z i).1 ∧ (z i).1 ≤ 1000 ∧ 0 ≤ (z i).2 ∧ (z i).2 ≤ 1000

instance (z : Fin 4 → ℤ × ℤ) : Decidable (ZSmall z) := by unfold ZSmall; infer_instance

theorem zquad_convex {z : Fin 4 → ℤ × ℤ} (h : ZConvex z) : ConvexQuad (zquad z) := by
  have e : ∀ i, area2 (zquad z i) (zquad z (i + 1)) (zquad z (i + 2)) = (zcross (z i) (z (i + 1)) (z (i + 2)) : ℝ) := by
    intro i; simp only [area2, zquad, zcross]; push_cast; ring
  obtain ⟨h, j, hj⟩ := h
  refine ⟨?_, j, by rw [e]; exact_mod_cast hj⟩
  rcases h with h | h
  · left; intro i; rw [e]; exact_mod_cast h i
  · right; intro i; rw [e]; exact_mod_cast h i

theorem abs_cross_le {a b c d : ℤ} (ha : |a| ≤ 700000) (hb : |b| ≤ 700000) (hc : |c| ≤ 700000) (hd : |d| ≤ 700000) :
    |a * b - c * d| ≤ 999999999999 := by
  rw [abs_le] at *
  constructor <;> nlinarith [mul_nonneg (sub_nonneg.mpr ha.2) (sub_nonneg.mpr hb.2),
    mul_nonneg (sub_nonneg.mpr ha.2) (by linarith [hb.1] : 0 ≤ b + 700000),
    mul_nonneg (by linarith [ha.1] : 0 ≤ a + 700000) (sub_nonneg.mpr hb.2),
    mul_nonneg (by linarith [ha.1] : 0 ≤ a + 700000) (by linarith [hb.1] : 0 ≤ b + 700000),
    mul_nonneg (sub_nonneg.mpr hc.2) (sub_nonneg.mpr hd.2),
    mul_nonneg (sub_nonneg.mpr hc.2) (by linarith [hd.1] : 0 ≤ d + 700000),
    mul_nonneg (by linarith [hc.1] : 0 ≤ c + 700000) (sub_nonneg.mpr hd.2),
    mul_nonneg (by linarith [hc.1] : 0 ≤ c + 700000) (by linarith [hd.1] : 0 ≤ d + 700000)]

/-- A quotient of integers with a small denominator is not close to an integer without being one. -/
theorem frac_gap {m k : ℤ} {u : ℝ} (hm : m ≠ 0) (hb : |m| ≤ 999999999999) (hu : u * m = k) (hneg : u < 0) :
    u < -(1 / 1000000000000) := by
  rcases lt_or_gt_of_ne hm with h | h
  · have h' : (m : ℝ) < 0 := by exact_mod_cast h
    have hk : (0 : ℝ) < k := by rw [← hu]; nlinarith
    have hk1 : (1 : ℝ) ≤ k := by exact_mod_cast Int.lt_iff_add_one_le.mp (by exact_mod_cast hk : (0 : ℤ) < k)
    have hmb : (-999999999999 : ℝ) ≤ m := by exact_mod_cast (abs_le.mp hb).1
    by_contra hcon
    push Not at hcon
    nlinarith
  · have h' : (0 : ℝ) < m := by exact_mod_cast h
    have hk : (k : ℝ) < 0 := by rw [← hu]; nlinarith
    have hk1 : (k : ℝ) ≤ -1 := by
      have : k < 0 := by exact_mod_cast hk
      exact_mod_cast (by omega : k ≤ -1)
    have hmb : (m : ℝ) ≤ 999999999999 := by exact_mod_cast (abs_le.mp hb).2
    by_contra hcon
    push Not at hcon
    nlinarith

theorem clearSign_frac {m k : ℤ} {u : ℝ} (hm : m ≠ 0) (hb : |m| ≤ 999999999999) (hu : u * m = k) : ClearSign u := by
  rcases lt_or_ge u 0 with h | h
  · exact Or.inr (frac_gap hm hb hu h)
  · exact Or.inl h

theorem clearParam_frac {m k : ℤ} {u : ℝ} (hm : m ≠ 0) (hb : |m| ≤ 999999999999) (hu : u * m = k) : ClearParam u := by
  rcases le_or_gt u 0 with h | h
  · exact Or.inl h
  rcases le_or_gt 1 u with h1 | h1
  · exact Or.inr (Or.inr h1)
  have e1 := frac_gap (m := m) (k := -k) (u := -u) hm hb (by push_cast; linarith) (by linarith)
  have e2 := frac_gap (m := m) (k := k - m) (u := u - 1) hm hb (by push_cast; linarith) (by linarith)
  exact Or.inr (Or.inl ⟨by linarith, by linarith⟩)

theorem zcross_ne {a b c : ℤ × ℤ} (h : area2 ((a.1 : ℝ), (a.2 : ℝ)) (b.1, b.2) (c.1, c.2) ≠ 0) : zcross a b c ≠ 0 := by
  intro h0
  apply h
  have : ((zcross a b c : ℤ) : ℝ) = 0 := by rw [h0]; simp
  rw [← this]
  simp only [area2, zcross]; push_cast; ring

theorem clearOfSides_int {a b c p : ℤ × ℤ} (hb : |zcross a b c| ≤ 999999999999) :
    ClearOfSides (a.1, a.2) (b.1, b.2) (c.1, c.2) (p.1, p.2) := by
  intro hne u v w hsum hp
  have hm := zcross_ne hne
  have hx : (p.1 : ℝ) = u * a.1 + v * b.1 + w * c.1 := congrArg Prod.fst hp
  have hy : (p.2 : ℝ) = u * a.2 + v * b.2 + w * c.2 := congrArg Prod.snd hp
  have hu : u = 1 - v - w := by linarith
  refine ⟨clearSign_frac hm hb (k := zcross p b c) ?_, clearSign_frac hm hb (k := zcross a p c) ?_,
    clearSign_frac hm hb (k := zcross a b p) ?_⟩ <;>
  · simp only [zcross]; push_cast; rw [hx, hy, hu]; ring

/-- Quadrilaterals with integer nodes and sides that are not too long are clear of each other. -/
theorem clearPair_sides {z1 z2 : Fin 4 → ℤ × ℤ} (c1 : ZConvex z1) (c2 : ZConvex z2)
    (b1 : ∀ i j, |(z1 j).1 - (z1 i).1| ≤ 700000 ∧ |(z1 j).2 - (z1 i).2| ≤ 700000)
    (b2 : ∀ i j, |(z2 j).1 - (z2 i).1| ≤ 700000 ∧ |(z2 j).2 - (z2 i).2| ≤ 700000) :
    ClearPair (zquad z1) (zquad z2) := by
  have hcb : ∀ {z : Fin 4 → ℤ × ℤ}, (∀ i j, |(z j).1 - (z i).1| ≤ 700000 ∧ |(z j).2 - (z i).2| ≤ 700000) →
      ∀ i j k, |zcross (z i) (z j) (z k)| ≤ 999999999999 := by
    intro z h i j k
    exact abs_cross_le (h i j).1 (h i k).2 (h i j).2 (h i k).1
  refine ⟨?_, ?_, ?_⟩
  · intro i
    exact ⟨clearOfSides_int (hcb b2 _ _ _), clearOfSides_int (hcb b2 _ _ _)⟩
  · intro i
    exact ⟨clearOfSides_int (hcb b1 _ _ _), clearOfSides_int (hcb b1 _ _ _)⟩
  · intro i j hdet s t heq
    have hx : ((z1 i).1 : ℝ) + s * ((z1 (i + 1)).1 - (z1 i).1) = (z2 j).1 + t * ((z2 (j + 1)).1 - (z2 j).1) :=
      congrArg Prod.fst heq
    have hy : ((z1 i).2 : ℝ) + s * ((z1 (i + 1)).2 - (z1 i).2) = (z2 j).2 + t * ((z2 (j + 1)).2 - (z2 j).2) :=
      congrArg Prod.snd heq
    set m : ℤ := ((z1 (i + 1)).1 - (z1 i).1) * ((z2 (j + 1)).2 - (z2 j).2) -
      ((z1 (i + 1)).2 - (z1 i).2) * ((z2 (j + 1)).1 - (z2 j).1) with hmdef
    have hm : m ≠ 0 := by
      intro h0
      apply hdet
      have : (m : ℝ) = 0 := by exact_mod_cast h0
      rw [hmdef] at this
      push_cast at this
      exact this
    have hmb : |m| ≤ 999999999999 := abs_cross_le (b1 _ _).1 (b2 _ _).2 (b1 _ _).2 (b2 _ _).1
    refine ⟨clearParam_frac hm hmb (k := ((z2 j).1 - (z1 i).1) * ((z2 (j + 1)).2 - (z2 j).2) -
      ((z2 j).2 - (z1 i).2) * ((z2 (j + 1)).1 - (z2 j).1)) ?_,
      clearParam_frac hm hmb (k := ((z2 j).1 - (z1 i).1) * ((z1 (i + 1)).2 - (z1 i).2) -
      ((z2 j).2 - (z1 i).2) * ((z1 (i + 1)).1 - (z1 i).1)) ?_⟩
    · rw [hmdef]; push_cast
      linear_combination ((z2 (j + 1)).2 - (z2 j).2 : ℝ) * hx - ((z2 (j + 1)).1 - (z2 j).1 : ℝ) * hy
    · rw [hmdef]; push_cast
      linear_combination ((z1 (i + 1)).2 - (z1 i).2 : ℝ) * hx - ((z1 (i + 1)).1 - (z1 i).1 : ℝ) * hy

/-- Quadrilaterals with small integer nodes are clear of each other. -/
theorem clearPair_int {z1 z2 : Fin 4 → ℤ × ℤ} (c1 : ZConvex z1) (c2 : ZConvex z2) (s1 : ZSmall z1) (s2 : ZSmall z2) :
    ClearPair (zquad z1) (zquad z2) := by
  have hbd : ∀ {z : Fin 4 → ℤ × ℤ}, ZSmall z → ∀ i j, |(z j).1 - (z i).1| ≤ 700000 ∧ |(z j).2 - (z i).2| ≤ 700000 := by
    intro z h i j
    have := h i; have := h j
    constructor <;> (rw [abs_le]; omega)
  exact clearPair_sides c1 c2 (hbd s1) (hbd s2)

/-- A square and a diamond of the other orientation whose boundaries cross in eight points. -/
def zSquare : Fin 4 → ℤ × ℤ := ![(1, 1), (5, 1), (5, 5), (1, 5)]
def zDiamond : Fin 4 → ℤ × ℤ := ![(3, 0), (0, 3), (3, 6), (6, 3)]

example : ConvexQuad (zquad zSquare) ∧ ConvexQuad (zquad zDiamond) ∧ ClearPair (zquad zSquare) (zquad zDiamond) ∧
    Reached (refGels (K := ℝ)) Isect.new ∧ GelsContract (refGels (K := ℝ)) :=
  ⟨zquad_convex (by decide), zquad_convex (by decide), clearPair_int (by decide) (by decide) (by decide) (by decide),
    reached_new _, refGels_contract⟩

/-- One of the crossings is found. -/
example : ∃ s' pts, ((Isect.new : Isect ℝ).setQuadPoints (zquad zSquare) (zquad zDiamond)).collectIntersectPoints refGels =
    .ok (s', pts) ∧ ((2, 1) : ℝ × ℝ) ∈ pts := by
  obtain ⟨s', pts, e, h⟩ := C53_points_exact refGels refGels_contract Isect.new (reached_new _) rfl (zquad zSquare)
    (zquad zDiamond) (zquad_convex (by decide)) (zquad_convex (by decide))
    (clearPair_int (by decide) (by decide) (by decide) (by decide))
  refine ⟨s', pts, e, ?_⟩
  show _ ∈ ptsOf pts
  rw [h]
  refine Or.inr (Or.inr ⟨0, 0, ?_, ?_, ?_⟩)
  · simp [zquad, zSquare, zDiamond]; norm_num
  · exact ⟨3/4, 1/4, by norm_num, by norm_num, by norm_num, by ext <;> simp [zquad, zSquare] <;> norm_num⟩
  · exact ⟨2/3, 1/3, by norm_num, by norm_num, by norm_num, by ext <;> simp [zquad, zDiamond] <;> norm_num⟩

/-! ### C55 -/

section reuse
variable {F : Type} [Zero F] [One F] [Add F] [Sub F] [Mul F] [Div F] [Neg F] [LT F] [DecidableLT F] [LE F] [DecidableLE F]
  [NatCast F]

/-- C55 (partial): for every arithmetic and every history, after `reset` a pair gives exactly the points it gives with a
new object.  Missing: without `reset`, which the C interface does not offer, the points of earlier pairs remain
(`C55_reuse_refuted`, `C55_accumulates`). -/
theorem C55_reuse_partial (g : Gels F) (hg : ∀ r : GelsArgs F, (g r).a.length = r.a.length ∧ (g r).b.length = r.b.length)
    (s : Isect F) (hs : Reached g s) (q1 q2 : Quad F) :
    ∃ s1 s2 pts, ((Isect.new : Isect F).setQuadPoints q1 q2).collectIntersectPoints g = .ok (s1, pts) ∧
      (s.reset.setQuadPoints q1 q2).collectIntersectPoints g = .ok (s2, pts) := by
  obtain ⟨sl, e, -⟩ := collect_ok g hg ((Isect.new : Isect F).setQuadPoints q1 q2) ready_new q1 q2 rfl rfl
  obtain ⟨sl', e', -⟩ := collect_ok g hg (s.reset.setQuadPoints q1 q2)
    (show Ready s.slvr from reached_ready hg hs) q1 q2 rfl rfl
  exact ⟨_, _, _, e, e'⟩

/-- C55: without `reset` the points of the pair are added after all those returned before. -/
theorem C55_accumulates (g : Gels F) (hg : ∀ r : GelsArgs F, (g r).a.length = r.a.length ∧ (g r).b.length = r.b.length)
    (s : Isect F) (hs : Reached g s) (q1 q2 : Quad F) :
    ∃ s1 s2 pts, ((Isect.new : Isect F).setQuadPoints q1 q2).collectIntersectPoints g = .ok (s1, pts) ∧
      (s.setQuadPoints q1 q2).collectIntersectPoints g = .ok (s2, s.pts ++ pts) ∧ s2.pts = s.pts ++ pts := by
  obtain ⟨sl, e, -⟩ := collect_ok g hg ((Isect.new : Isect F).setQuadPoints q1 q2) ready_new q1 q2 rfl rfl
  obtain ⟨sl', e', -⟩ := collect_ok g hg (s.setQuadPoints q1 q2)
    (show Ready s.slvr from reached_ready hg hs) q1 q2 rfl rfl
  exact ⟨_, _, _, e, e', rfl⟩

end reuse

/-- C55 does not hold: a pair of disjoint squares gets the points of the pair before, which lie in neither of them. -/
theorem C55_reuse_refuted (g : Gels ℝ) (hg : GelsContract g) :
    ∃ q1 q2 q1' q2' : Quad ℝ, ConvexQuad q1 ∧ ConvexQuad q2 ∧ ConvexQuad q1' ∧ ConvexQuad q2' ∧
      ∃ s1 pts1, ((Isect.new : Isect ℝ).setQuadPoints q1 q2).collectIntersectPoints g = .ok (s1, pts1) ∧
      ∃ s2 pts2, (s1.setQuadPoints q1' q2').collectIntersectPoints g = .ok (s2, pts2) ∧
        ∃ p ∈ pts2, p ∉ quadRegion q1' ∧ p ∉ quadRegion q2' := by
  let z1 : Fin 4 → ℤ × ℤ := ![(0, 0), (1, 0), (1, 1), (0, 1)]
  let z2 : Fin 4 → ℤ × ℤ := ![(10, 10), (11, 10), (11, 11), (10, 11)]
  let z3 : Fin 4 → ℤ × ℤ := ![(20, 20), (21, 20), (21, 21), (20, 21)]
  have c1 : ZConvex z1 := by decide
  have c2 : ZConvex z2 := by decide
  have c3 : ZConvex z3 := by decide
  refine ⟨zquad z1, zquad z1, zquad z2, zquad z3, zquad_convex c1, zquad_convex c1, zquad_convex c2, zquad_convex c3, ?_⟩
  obtain ⟨sl, e, r⟩ := collect_ok g (keepsSizes hg) ((Isect.new : Isect ℝ).setQuadPoints (zquad z1) (zquad z1)) ready_new
    (zquad z1) (zquad z1) rfl rfl
  refine ⟨_, _, e, ?_⟩
  obtain ⟨sl', e', r'⟩ := collect_ok g (keepsSizes hg)
    ((((Isect.new : Isect ℝ).setQuadPoints (zquad z1) (zquad z1)).put sl (collected g (zquad z1) (zquad z1))).setQuadPoints
      (zquad z2) (zquad z3)) r (zquad z2) (zquad z3) rfl rfl
  refine ⟨_, _, e', zquad z1 0, ?_, ?_, ?_⟩
  · refine List.mem_append_left _ ?_
    show _ ∈ [] ++ collected g (zquad z1) (zquad z1)
    rw [List.nil_append]
    show _ ∈ ptsOf (collected g (zquad z1) (zquad z1))
    rw [collected_eq hg (zquad_convex c1) (zquad_convex c1) (clearPair_int c1 c1 (by decide) (by decide))]
    exact Or.inl ⟨0, rfl, mem_region _ _⟩
  · intro h
    obtain ⟨i, hi⟩ := (hull_between h).1.1
    revert hi
    fin_cases i <;> simp [zquad, z1, z2]
  · intro h
    obtain ⟨i, hi⟩ := (hull_between h).1.1
    revert hi
    fin_cases i <;> simp [zquad, z1, z3]

end Sg.Props
