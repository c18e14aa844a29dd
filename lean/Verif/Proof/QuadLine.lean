import Verif.Model.QuadLineIntersect
import Verif.Proof.QuadIntersectExact
import Verif.Proof.QuadLineGeom
/-
The methods of the line intersector as functions of their arguments, then in exact arithmetic.
-/
namespace Sg.QuadLine
open Sg.LinearSolve Sg.Triangulate Sg.QuadIntersect Sg.Spec

section generic
set_option linter.unusedSectionVars false
variable {F : Type} [Zero F] [One F] [Add F] [Sub F] [Mul F] [Div F] [Neg F] [LT F] [DecidableLT F] [LE F] [DecidableLE F]
  [NatCast F]

/-- The test of a point and a triangle as a function. -/
def inTriL (g : Gels F) (pt n0 n1 n2 : Pt F) : Bool :=
  let o := g (args2 (triMat n0 n1 n2) (triRhs pt n0))
  if 0 < o.info then false
  else decide (-ltol < o.b.getD 0 0) && decide (o.b.getD 0 0 ≤ 1 + ltol) && decide (-ltol < o.b.getD 1 0) &&
    decide (o.b.getD 0 0 + o.b.getD 1 0 ≤ 1 + ltol)

/-- The test of a point and a quadrilateral as a function. -/
def inQuad (g : Gels F) (pt : Pt F) (q : Quad F) : Bool := inTriL g pt (q 0) (q 1) (q 3) || inTriL g pt (q 2) (q 3) (q 1)

/-- The parameter of the crossing of an edge and the segment as a function. -/
def edgeLam (g : Gels F) (e0 e1 a b : Pt F) : Option F :=
  let o := g (args2 (edgeMat e0 e1 a b) (triRhs a e0))
  if 0 < o.info then none
  else if -ltol ≤ o.b.getD 0 0 ∧ o.b.getD 0 0 < 1 + ltol ∧ -ltol ≤ o.b.getD 1 0 ∧ o.b.getD 1 0 < 1 + ltol then
    some (o.b.getD 1 0)
  else none

theorem inTriL_ok (g : Gels F) (hg : KeepsSizes g) (s : Solver F) (hs : Ready s) (pt n0 n1 n2 : Pt F) :
    ∃ s', checkIfPointIsInsideTriangle g s pt n0 n1 n2 = .ok (s', inTriL g pt n0 n1 n2) ∧ Ready s' := by
  obtain ⟨s', he, hr, hx⟩ := solve2_ok g hg s hs (triMat n0 n1 n2) (triRhs pt n0)
  refine ⟨s', ?_, hr⟩
  have hl : s'.getSolution.length = 2 := by show s'.x.length = 2; rw [hx, (hg _).2]; rfl
  have h2 := vget_two hl
  have hsol : s'.getSolution = (g (args2 (triMat n0 n1 n2) (triRhs pt n0))).b := hx
  unfold checkIfPointIsInsideTriangle inTriL
  rw [he]
  simp only [bind, Except.bind, pure, Except.pure, h2.1, h2.2]
  rw [hsol]
  split <;> rfl

theorem inQuad_ok (g : Gels F) (hg : KeepsSizes g) (s : Solver F) (hs : Ready s) (pt : Pt F) (q : Quad F) :
    ∃ s', isPointInQuad g s pt q = .ok (s', inQuad g pt q) ∧ Ready s' := by
  obtain ⟨s1, h1, r1⟩ := inTriL_ok g hg s hs pt (q 0) (q 1) (q 3)
  obtain ⟨s2, h2, r2⟩ := inTriL_ok g hg s1 r1 pt (q 2) (q 3) (q 1)
  simp only [isPointInQuad, inQuad, h1, bind, Except.bind, pure, Except.pure]
  cases inTriL g pt (q 0) (q 1) (q 3) with
  | true => exact ⟨s1, rfl, r1⟩
  | false => exact ⟨s2, by simpa using h2, r2⟩

/-- The state with another solver and more parameters. -/
def Line.put (s : Line F) (sl : Solver F) (l : List F) : Line F := { s with slvr := sl, lambdas := s.lambdas ++ l }

theorem put_put (s : Line F) (sl sl' : Solver F) (l l' : List F) :
    (s.put sl l).put sl' l' = s.put sl' (l ++ l') := by simp [Line.put]

theorem edgeLam_ok (g : Gels F) (hg : KeepsSizes g) (s : Line F) (hs : Ready s.slvr) (e0 e1 a b : Pt F) :
    ∃ sl c, s.collectEdge g e0 e1 a b = .ok (s.put sl (edgeLam g e0 e1 a b).toList, c) ∧ Ready sl := by
  obtain ⟨s', he, hr, hx⟩ := solve2_ok g hg s.slvr hs (edgeMat e0 e1 a b) (triRhs a e0)
  have hl : s'.getSolution.length = 2 := by show s'.x.length = 2; rw [hx, (hg _).2]; rfl
  have h2 := vget_two hl
  have hsol : s'.getSolution = (g (args2 (edgeMat e0 e1 a b) (triRhs a e0))).b := hx
  unfold Line.collectEdge edgeLam
  rw [he]
  simp only [bind, Except.bind, pure, Except.pure, h2.1, h2.2]
  rw [hsol]
  split
  · exact ⟨s', 0, by simp [Line.put], hr⟩
  · split
    · exact ⟨s', 1, by simp [Line.put], hr⟩
    · exact ⟨s', 0, by simp [Line.put], hr⟩

/-- One end of the segment, if found in the quadrilateral. -/
def endHit (g : Gels F) (pt : Pt F) (q : Quad F) (lambda : F) : List F := if inQuad g pt q then [lambda] else []

theorem endHit_ok (g : Gels F) (hg : KeepsSizes g) (s : Line F) (hs : Ready s.slvr) (pt : Pt F) (q : Quad F) (x : F) :
    ∃ sl, s.collectEnd g pt q x = .ok (s.put sl (endHit g pt q x)) ∧ Ready sl := by
  obtain ⟨s', h1, h2⟩ := inQuad_ok g hg s.slvr hs pt q
  refine ⟨s', ?_, h2⟩
  simp only [Line.collectEnd, h1, bind, Except.bind, pure, Except.pure, endHit]
  split <;> simp [Line.put]

/-- Parameter on edge `i`, if any. -/
def edgeHitL (g : Gels F) (q : Quad F) (a b : Pt F) (i : Nat) : List F :=
  (edgeLam g (q (node i)) (q (node (i + 1))) a b).toList

/-- The parameters a call collects, before sorting. -/
def collectedL (g : Gels F) (q : Quad F) (a b : Pt F) : List F :=
  endHit g a q 0 ++ ((List.range 4).flatMap (edgeHitL g q a b) ++ endHit g b q 1)

theorem edges_ok (g : Gels F) (hg : KeepsSizes g) (s : Line F) (hs : Ready s.slvr) (q : Quad F) (a b : Pt F) :
    ∃ sl, (forN 4 s fun i s => do
      let (s, _) ← s.collectEdge g (q (node i)) (q (node (i + 1))) a b
      return s) = .ok (s.put sl ((List.range 4).flatMap (edgeHitL g q a b))) ∧ Ready sl := by
  obtain ⟨s', h1, sl, rfl, h2⟩ := forN_inv
    (fun k t => ∃ sl, t = s.put sl ((List.range k).flatMap (edgeHitL g q a b)) ∧ Ready sl)
    (fun i s => do
      let (s, _) ← s.collectEdge g (q (node i)) (q (node (i + 1))) a b
      return s) 4 s ⟨s.slvr, by simp [Line.put], hs⟩ (by
    rintro k t hk ⟨sl, rfl, hr⟩
    obtain ⟨sl', c, h1, h2⟩ := edgeLam_ok g hg (s.put sl ((List.range k).flatMap (edgeHitL g q a b))) hr
      (q (node k)) (q (node (k + 1))) a b
    refine ⟨_, ?_, sl', rfl, h2⟩
    simp only [h1, bind, Except.bind, pure, Except.pure, range_succ_flatMap, edgeHitL, put_put])
  exact ⟨sl, h1, h2⟩

/-- What a call of `collectIntersectPoints` does. -/
theorem collectL_ok (g : Gels F) (hg : KeepsSizes g) (srt : List F → List F) (s : Line F) (hs : Ready s.slvr) (q bq a b bl)
    (h1 : s.quad = some (q, bq)) (h2 : s.line = some ((a, b), bl)) :
    ∃ sl, Ready sl ∧ s.collectIntersectPoints g srt =
      .ok ({ s with
        slvr := sl
        lambdas := srt (s.lambdas ++ collectedL g q a b)
        points := (srt (s.lambdas ++ collectedL g q a b)).map (linePoint a b) },
      (srt (s.lambdas ++ collectedL g q a b)).map (linePoint a b)) := by
  obtain ⟨sl1, e1, r1⟩ := endHit_ok g hg s hs a q 0
  obtain ⟨sl2, e2, r2⟩ := edges_ok g hg (s.put sl1 (endHit g a q 0)) r1 q a b
  obtain ⟨sl3, e3, r3⟩ := endHit_ok g hg ((s.put sl1 (endHit g a q 0)).put sl2 ((List.range 4).flatMap (edgeHitL g q a b))) r2 b q 1
  refine ⟨sl3, r3, ?_⟩
  unfold Line.collectIntersectPoints
  rw [h1, h2]
  simp only [bind, Except.bind, pure, Except.pure] at e1 e2 e3 ⊢
  simp only [e1, e2, e3]
  simp only [Line.put, collectedL, List.append_assoc, h1, h2]

end generic

section exact
variable {K : Type} [Field K] [LinearOrder K] [IsStrictOrderedRing K]

theorem ltol_pos : (0 : K) < ltol := by unfold ltol; positivity

theorem inTriL_iff {g : Gels K} (hg : GelsContract g) {pt n0 n1 n2 : Pt K} (h : cross n0 n1 n2 ≠ 0) {u v w : K}
    (hsum : u + v + w = 1) (hx : pt.1 = u * n0.1 + v * n1.1 + w * n2.1) (hy : pt.2 = u * n0.2 + v * n1.2 + w * n2.2) :
    inTriL g pt n0 n1 n2 = true ↔ -ltol < v ∧ v ≤ 1 + ltol ∧ -ltol < w ∧ v + w ≤ 1 + ltol := by
  have hdet : triMat n0 n1 n2 0 * triMat n0 n1 n2 3 - triMat n0 n1 n2 1 * triMat n0 n1 n2 2 ≠ 0 := by
    have : triMat n0 n1 n2 0 * triMat n0 n1 n2 3 - triMat n0 n1 n2 1 * triMat n0 n1 n2 2 = cross n0 n1 n2 := by
      simp only [triMat, cross]; ring
    rw [this]; exact h
  obtain ⟨h0, h1, h2⟩ := solve_regular hg (triMat n0 n1 n2) (triRhs pt n0) hdet
  have e := unique2 (x0 := (g (args2 (triMat n0 n1 n2) (triRhs pt n0))).b.getD 0 0)
    (x1 := (g (args2 (triMat n0 n1 n2) (triRhs pt n0))).b.getD 1 0) (y0 := v) (y1 := w) hdet
    (by rw [h1]; simp only [triMat, triRhs]; rw [hx]; linear_combination n0.1 * hsum)
    (by rw [h2]; simp only [triMat, triRhs]; rw [hy]; linear_combination n0.2 * hsum)
  unfold inTriL
  simp only [h0, lt_irrefl, if_false, e.1, e.2, Bool.and_eq_true, decide_eq_true_eq, and_assoc]

theorem inTriL_degenerate {g : Gels K} (hg : GelsContract g) {pt n0 n1 n2 : Pt K} (hne : ¬ (n0 = n1 ∧ n0 = n2))
    (h : cross n0 n1 n2 = 0) : inTriL g pt n0 n1 n2 = false := by
  have := solve_singular hg (triMat n0 n1 n2) (triRhs pt n0) (by rw [triMat_zero]; exact hne) (by
    rw [← h]; simp only [triMat, cross]; ring)
  unfold inTriL
  simp only [if_pos this]

/-- Every parameter an edge adds is within the tolerance of [0, 1]. -/
theorem edgeLam_range (g : Gels K) {e0 e1 a b : Pt K} {x : K} (h : edgeLam g e0 e1 a b = some x) :
    -ltol ≤ x ∧ x ≤ 1 + ltol := by
  unfold edgeLam at h
  dsimp only at h
  split at h
  · cases h
  · split at h
    · rename_i hc; cases h; exact ⟨hc.2.2.1, hc.2.2.2.le⟩
    · cases h

theorem collectedL_range (g : Gels K) (q : Quad K) (a b : Pt K) {x : K} (h : x ∈ collectedL g q a b) :
    -ltol ≤ x ∧ x ≤ 1 + ltol := by
  have ht := ltol_pos (K := K)
  unfold collectedL at h
  simp only [List.mem_append, List.mem_flatMap, endHit, edgeHitL, Option.mem_toList] at h
  rcases h with h | ⟨i, _, h⟩ | h
  · split at h
    · rw [List.mem_singleton] at h; subst h; constructor <;> linarith
    · cases h
  · exact edgeLam_range g h
  · split at h
    · rw [List.mem_singleton] at h; subst h; constructor <;> linarith
    · cases h

end exact

/-! ### In the plane -/
open Sg.Plane

theorem ltol_real : (ltol : ℝ) = lineTol := by simp [ltol, lineTol]; norm_num

theorem inTriL_of_mem {g : Gels ℝ} (hg : GelsContract g) {a b c p : P2} (h : cross a b c ≠ 0) (hp : p ∈ tri a b c) :
    inTriL g p a b c = true := by
  obtain ⟨u, v, w, hu, hv, hw, hs, rfl⟩ := tri_bary hp
  have := ltol_pos (K := ℝ)
  rw [inTriL_iff hg h hs (comb_fst _ _ _ _ _ _) (comb_snd _ _ _ _ _ _)]
  refine ⟨?_, ?_, ?_, ?_⟩ <;> linarith

theorem mem_of_inTriL {g : Gels ℝ} (hg : GelsContract g) {a b c p : P2} (hnd : ¬ (a = b ∧ a = c)) (hc : LineClearOfSides a b c p)
    (h : inTriL g p a b c = true) : p ∈ tri a b c := by
  have hne : cross a b c ≠ 0 := by
    intro h0; rw [inTriL_degenerate hg hnd h0] at h; cases h
  obtain ⟨u, v, w, hs, rfl⟩ := exists_bary hne p
  rw [inTriL_iff hg hne hs (comb_fst _ _ _ _ _ _) (comb_snd _ _ _ _ _ _), ltol_real] at h
  obtain ⟨cu, cv, cw⟩ := hc (by rw [← cross_area2]; exact hne) u v w hs rfl
  refine mem_tri u v w ?_ ?_ ?_ hs rfl
  · rcases cu with c | c
    · exact c
    · linarith
  · rcases cv with c | c
    · exact c
    · linarith
  · rcases cw with c | c
    · exact c
    · linarith

theorem inQuad_iff {g : Gels ℝ} (hg : GelsContract g) {q : Quad ℝ} (hq : ConvexQuad q) {p : P2}
    (hc : LineClearOfSides (q 0) (q 1) (q 3) p ∧ LineClearOfSides (q 2) (q 3) (q 1) p) :
    inQuad g p q = true ↔ p ∈ quadRegion q := by
  unfold inQuad
  rw [Bool.or_eq_true]
  constructor
  · rintro (h | h)
    · exact tri_sub_region _ _ _ _ (mem_of_inTriL hg (ConvexQuad.proper hq).1 hc.1 h)
    · exact tri_sub_region _ _ _ _ (mem_of_inTriL hg (ConvexQuad.proper hq).2 hc.2 h)
  · intro h
    rcases (region_tris hq p).mp h with ⟨h1, h⟩ | ⟨h2, h⟩
    · exact Or.inl (inTriL_of_mem hg h1 h)
    · exact Or.inr (inTriL_of_mem hg h2 h)

/-- The crossing test finds the parameters of the crossing of the lines. -/
theorem edgeLam_some {g : Gels ℝ} (hg : GelsContract g) {e0 e1 a b : P2} (hnd : ¬ (e0 = e1 ∧ a = b)) {t : ℝ} :
    edgeLam g e0 e1 a b = some t ↔
      (e1.1 - e0.1) * (b.2 - a.2) - (e1.2 - e0.2) * (b.1 - a.1) ≠ 0 ∧
      ∃ s : ℝ, e0 + s • (e1 - e0) = a + t • (b - a) ∧
        -ltol ≤ s ∧ s < 1 + ltol ∧ -ltol ≤ t ∧ t < 1 + ltol := by
  have hd : edgeMat e0 e1 a b 0 * edgeMat e0 e1 a b 3 - edgeMat e0 e1 a b 1 * edgeMat e0 e1 a b 2 =
      -((e1.1 - e0.1) * (b.2 - a.2) - (e1.2 - e0.2) * (b.1 - a.1)) := by
    simp only [edgeMat]; ring
  by_cases hz : (e1.1 - e0.1) * (b.2 - a.2) - (e1.2 - e0.2) * (b.1 - a.1) = 0
  · have := solve_singular hg (edgeMat e0 e1 a b) (triRhs a e0) (by
      rintro ⟨z0, z1, z2, z3⟩
      simp only [edgeMat, sub_eq_zero] at z0 z1 z2 z3
      exact hnd ⟨Prod.ext z0.symm z2.symm, Prod.ext z1 z3⟩) (by rw [hd, hz, neg_zero])
    unfold edgeLam
    simp only [if_pos this, hz, ne_eq, not_true_eq_false, false_and, reduceCtorEq]
  · have hdet : edgeMat e0 e1 a b 0 * edgeMat e0 e1 a b 3 - edgeMat e0 e1 a b 1 * edgeMat e0 e1 a b 2 ≠ 0 := by
      rw [hd]; exact neg_ne_zero.mpr hz
    obtain ⟨h0, h1, h2⟩ := solve_regular hg (edgeMat e0 e1 a b) (triRhs a e0) hdet
    unfold edgeLam
    simp only [h0, lt_irrefl, if_false]
    generalize hs : (g (args2 (edgeMat e0 e1 a b) (triRhs a e0))).b.getD 0 0 = s at *
    generalize ht : (g (args2 (edgeMat e0 e1 a b) (triRhs a e0))).b.getD 1 0 = t' at *
    have heq : e0 + s • (e1 - e0) = a + t' • (b - a) := by
      simp only [edgeMat, triRhs] at h1 h2
      ext
      · simp only [Prod.fst_add, Prod.smul_fst, Prod.fst_sub, smul_eq_mul]; linear_combination h1
      · simp only [Prod.snd_add, Prod.smul_snd, Prod.snd_sub, smul_eq_mul]; linear_combination h2
    constructor
    · intro h
      split at h
      · rename_i hc
        cases h
        exact ⟨hz, s, heq, hc⟩
      · cases h
    · rintro ⟨_, s', heq', hc⟩
      have e : s = s' ∧ t' = t := by
        refine unique2 (a0 := edgeMat e0 e1 a b 0) (a1 := edgeMat e0 e1 a b 1) (a2 := edgeMat e0 e1 a b 2)
          (a3 := edgeMat e0 e1 a b 3) hdet ?_ ?_
        · have := congrArg Prod.fst heq'
          simp only [Prod.fst_add, Prod.smul_fst, Prod.fst_sub, smul_eq_mul] at this
          rw [h1]; simp only [edgeMat, triRhs]; linear_combination -this
        · have := congrArg Prod.snd heq'
          simp only [Prod.snd_add, Prod.smul_snd, Prod.snd_sub, smul_eq_mul] at this
          rw [h2]; simp only [edgeMat, triRhs]; linear_combination -this
      obtain ⟨rfl, rfl⟩ := e
      rw [if_pos hc]

theorem mem_segment_iff {a b p : P2} : p ∈ segment ℝ a b ↔ ∃ s : ℝ, 0 ≤ s ∧ s ≤ 1 ∧ p = a + s • (b - a) := by
  constructor
  · rintro ⟨u, v, hu, hv, huv, rfl⟩
    refine ⟨v, hv, by linarith, ?_⟩
    obtain rfl : u = 1 - v := by linarith
    ext <;> simp <;> ring
  · rintro ⟨s, h0, h1, rfl⟩
    exact ⟨1 - s, s, by linarith, h0, by ring, by ext <;> simp <;> ring⟩

/-- With a clear crossing the test finds exactly the points of the segment on the edge. -/
theorem edgeLam_clear {g : Gels ℝ} (hg : GelsContract g) {e0 e1 a b : P2} (hnd : ¬ (e0 = e1 ∧ a = b)) (hc : LineClearCrossing e0 e1 a b)
    {t : ℝ} :
    edgeLam g e0 e1 a b = some t ↔ (e1.1 - e0.1) * (b.2 - a.2) - (e1.2 - e0.2) * (b.1 - a.1) ≠ 0 ∧
      0 ≤ t ∧ t ≤ 1 ∧ a + t • (b - a) ∈ segment ℝ e0 e1 := by
  rw [edgeLam_some hg hnd]
  have htol := ltol_pos (K := ℝ)
  constructor
  · rintro ⟨hne, s, heq, h1, h2, h3, h4⟩
    rw [ltol_real] at h1 h2 h3 h4
    refine ⟨hne, ?_⟩
    rcases hc hne s t heq with ⟨s0, s1, t0, t1⟩ | (h | h) | (h | h)
    · exact ⟨t0, t1, mem_segment_iff.mpr ⟨s, s0, s1, heq.symm⟩⟩
    all_goals linarith
  · rintro ⟨hne, t0, t1, hp⟩
    obtain ⟨s, s0, s1, heq⟩ := mem_segment_iff.mp hp
    exact ⟨hne, s, heq.symm, by linarith, by linarith, by linarith, by linarith⟩

theorem linePoint_eq (a b : P2) (t : ℝ) : linePoint a b t = a + t • (b - a) := by
  ext <;> simp [linePoint]

theorem mem_collectedL {g : Gels ℝ} {q : Quad ℝ} {a b : P2} {t : ℝ} :
    t ∈ collectedL g q a b ↔ (t = 0 ∧ inQuad g a q = true) ∨ (∃ i, edgeLam g (q i) (q (i + 1)) a b = some t) ∨
      (t = 1 ∧ inQuad g b q = true) := by
  unfold collectedL
  simp only [List.mem_append, List.mem_flatMap, endHit, edgeHitL, Option.mem_toList, Option.mem_def, List.mem_range]
  have e1 : ∀ (p : P2) (x : ℝ), t ∈ (if inQuad g p q = true then [x] else []) ↔ t = x ∧ inQuad g p q = true := by
    intro p x
    split <;> simp_all
  rw [e1, e1]
  have e2 : (∃ i, i < 4 ∧ edgeLam g (q (node i)) (q (node (i + 1))) a b = some t) ↔
      ∃ i, edgeLam g (q i) (q (i + 1)) a b = some t := by
    constructor
    · rintro ⟨i, _, h⟩; exact ⟨node i, by rw [node_succ] at h; exact h⟩
    · rintro ⟨i, h⟩; exact ⟨i, i.2, by rw [node_succ, node_cast]; exact h⟩
  rw [e2]

theorem inQuad_of_mem {g : Gels ℝ} (hg : GelsContract g) {q : Quad ℝ} (hq : ConvexQuad q) {p : P2} (h : p ∈ quadRegion q) :
    inQuad g p q = true := by
  unfold inQuad
  rw [Bool.or_eq_true]
  rcases (region_tris hq p).mp h with ⟨h1, h⟩ | ⟨h2, h⟩
  · exact Or.inl (inTriL_of_mem hg h1 h)
  · exact Or.inr (inTriL_of_mem hg h2 h)

theorem edgeLam_of_mem {g : Gels ℝ} (hg : GelsContract g) {e0 e1 a b : P2} {t : ℝ}
    (hne : (e1.1 - e0.1) * (b.2 - a.2) - (e1.2 - e0.2) * (b.1 - a.1) ≠ 0) (t0 : 0 ≤ t) (t1 : t ≤ 1)
    (hp : a + t • (b - a) ∈ segment ℝ e0 e1) : edgeLam g e0 e1 a b = some t := by
  have htol := ltol_pos (K := ℝ)
  obtain ⟨s, s0, s1, heq⟩ := mem_segment_iff.mp hp
  exact (edgeLam_some hg (by rintro ⟨rfl, rfl⟩; simp at hne)).mpr ⟨hne, s, heq.symm, by linarith, by linarith, by linarith, by linarith⟩

/-- The first and the last parameter inside are collected. -/
theorem collectedL_covers {g : Gels ℝ} (hg : GelsContract g) {q : Quad ℝ} (hq : ConvexQuad q) {a b : P2} :
    (∀ t, IsLeast (insideParams q a b) t → t ∈ collectedL g q a b) ∧
    (∀ t, IsGreatest (insideParams q a b) t → t ∈ collectedL g q a b) := by
  have ea : a + (0 : ℝ) • (b - a) = a := by simp
  have eb : a + (1 : ℝ) • (b - a) = b := by simp
  refine ⟨?_, ?_⟩
  · intro t ht
    rw [mem_collectedL]
    rcases least_edge hq ht with rfl | ⟨i, hi, hk⟩
    · left
      have := ht.1.2.2
      rw [ea] at this
      exact ⟨rfl, inQuad_of_mem hg hq this⟩
    · exact Or.inr (Or.inl ⟨i, edgeLam_of_mem hg hk ht.1.1 ht.1.2.1 hi⟩)
  · intro t ht
    rw [mem_collectedL]
    rcases greatest_edge hq ht with rfl | ⟨i, hi, hk⟩
    · right; right
      have := ht.1.2.2
      rw [eb] at this
      exact ⟨rfl, inQuad_of_mem hg hq this⟩
    · exact Or.inr (Or.inl ⟨i, edgeLam_of_mem hg hk ht.1.1 ht.1.2.1 hi⟩)

/-- The parameters collected are inside. -/
theorem collectedL_inside {g : Gels ℝ} (hg : GelsContract g) {q : Quad ℝ} (hq : ConvexQuad q) {a b : P2}
    (hc : ClearLine q a b) : ∀ t ∈ collectedL g q a b, t ∈ insideParams q a b := by
  have ea : a + (0 : ℝ) • (b - a) = a := by simp
  have eb : a + (1 : ℝ) • (b - a) = b := by simp
  intro t ht
  rw [mem_collectedL] at ht
  rcases ht with ⟨rfl, h⟩ | ⟨i, h⟩ | ⟨rfl, h⟩
  · exact ⟨le_rfl, zero_le_one, by rw [ea]; exact (inQuad_iff hg hq hc.start).mp h⟩
  · obtain ⟨_, h0, h1, h2⟩ := (edgeLam_clear hg (hc.proper i) (hc.edges i)).mp h
    exact ⟨h0, h1, segment_region i h2⟩
  · exact ⟨zero_le_one, le_rfl, by rw [eb]; exact (inQuad_iff hg hq hc.finish).mp h⟩

/-- First and last element of a sorted list. -/
theorem sorted_ends {l : List ℝ} (h : l.Pairwise (· ≤ ·)) {lo hi : ℝ} (hlo : l.head? = some lo) (hhi : l.getLast? = some hi) :
    lo ∈ l ∧ hi ∈ l ∧ ∀ t ∈ l, lo ≤ t ∧ t ≤ hi := by
  refine ⟨List.mem_of_head? hlo, List.mem_of_getLast? hhi, fun t ht => ⟨?_, ?_⟩⟩
  · cases l with
    | nil => cases hlo
    | cons x l =>
      simp only [List.head?_cons, Option.some.injEq] at hlo
      subst hlo
      rcases List.mem_cons.mp ht with rfl | ht
      · exact le_rfl
      · exact (List.pairwise_cons.mp h).1 t ht
  · obtain ⟨l', rfl⟩ := List.getLast?_eq_some_iff.mp hhi
    rcases List.mem_append.mp ht with h' | h'
    · exact (List.pairwise_append.mp h).2.2 t h' hi (by simp)
    · rw [List.mem_singleton] at h'; exact h'.le

/-- A sorted arrangement of the parameters covers the part inside. -/
theorem sorted_covers {g : Gels ℝ} (hg : GelsContract g) {q : Quad ℝ} (hq : ConvexQuad q) {a b : P2}
    {l : List ℝ} (hp : ∀ t ∈ collectedL g q a b, t ∈ l) (hs : l.Pairwise (· ≤ ·)) {t : ℝ} (ht : t ∈ insideParams q a b) :
    ∃ lo hi, l.head? = some lo ∧ l.getLast? = some hi ∧ lo ≤ t ∧ t ≤ hi := by
  obtain ⟨h2, h3⟩ := collectedL_covers hg hq (a := a) (b := b)
  obtain ⟨lo, hlo⟩ := (inside_compact q a b).exists_isLeast ⟨t, ht⟩
  obtain ⟨hi, hhi⟩ := (inside_compact q a b).exists_isGreatest ⟨t, ht⟩
  have mlo := hp _ (h2 lo hlo)
  have mhi := hp _ (h3 hi hhi)
  have hne : l ≠ [] := List.ne_nil_of_mem mlo
  have hx := List.head?_eq_some_head hne
  have hy := List.getLast?_eq_some_getLast hne
  obtain ⟨_, _, hb⟩ := sorted_ends hs hx hy
  exact ⟨_, _, hx, hy, ((hb lo mlo).1).trans (hlo.2 ht), (hhi.2 ht).trans ((hb hi mhi).2)⟩

/-- A sorted arrangement of the parameters delimits the part inside. -/
theorem sorted_inside {g : Gels ℝ} (hg : GelsContract g) {q : Quad ℝ} (hq : ConvexQuad q) {a b : P2}
    (hc : ClearLine q a b) {l : List ℝ} (hp : l.Perm (collectedL g q a b)) (hs : l.Pairwise (· ≤ ·)) :
    insideParams q a b = {t | ∃ lo hi, l.head? = some lo ∧ l.getLast? = some hi ∧ lo ≤ t ∧ t ≤ hi} := by
  have h1 := collectedL_inside hg hq hc
  ext t
  constructor
  · exact sorted_covers hg hq (fun t ht => hp.mem_iff.mpr ht) hs
  · rintro ⟨lo, hi, hlo, hhi, h⟩
    obtain ⟨m1, m2, _⟩ := sorted_ends hs hlo hhi
    exact (inside_convex q a b).ordConnected.out (h1 lo (hp.mem_iff.mp m1)) (h1 hi (hp.mem_iff.mp m2)) h

end Sg.QuadLine
