import Verif.Proof.QuadIntersect
import Verif.Proof.QuadGeom
import Mathlib.LinearAlgebra.Matrix.Determinant.Basic
/-
The tests of the intersector in exact arithmetic, for a library that meets its contract.
-/
namespace Sg.QuadIntersect
open Sg.LinearSolve Sg.Triangulate Sg.Spec Sg.Plane

section field
variable {K : Type} [Field K] [LinearOrder K]

theorem keepsSizes {g : Gels K} (hg : GelsContract g) : KeepsSizes g := hg.sizes

theorem fortran_det (a b : Nat → K) :
    (Matrix.of fun i j : Fin (args2 a b).n => fortran (args2 a b).a (args2 a b).lda i j).det = a 0 * a 3 - a 1 * a 2 := by
  show (Matrix.of fun i j : Fin 2 => fortran [a 0, a 1, a 2, a 3] 2 i j).det = _
  rw [Matrix.det_fin_two]
  simp [fortran]
  ring

/-- Two equations with non-zero determinant. -/
theorem solve_regular {g : Gels K} (hg : GelsContract g) (a b : Nat → K) (hdet : a 0 * a 3 - a 1 * a 2 ≠ 0) :
    (g (args2 a b)).info = 0 ∧
    a 0 * (g (args2 a b)).b.getD 0 0 + a 1 * (g (args2 a b)).b.getD 1 0 = b 0 ∧
    a 2 * (g (args2 a b)).b.getD 0 0 + a 3 * (g (args2 a b)).b.getD 1 0 = b 1 := by
  obtain ⟨h1, h2⟩ := hg.square_ok (args2 a b) rfl rfl rfl (by simp [args2]) rfl rfl rfl rfl (by simp [args2])
    (by rw [fortran_det]; exact hdet)
  refine ⟨h1, ?_, ?_⟩
  · have := h2 0 (by simp [args2])
    simpa [args2, fortran, Finset.sum_range_succ] using this
  · have := h2 1 (by simp [args2])
    simpa [args2, fortran, Finset.sum_range_succ] using this

theorem solve_singular {g : Gels K} (hg : GelsContract g) (a b : Nat → K) (hne : ¬ (a 0 = 0 ∧ a 1 = 0 ∧ a 2 = 0 ∧ a 3 = 0))
    (hdet : a 0 * a 3 - a 1 * a 2 = 0) : 0 < (g (args2 a b)).info :=
  hg.square_singular (args2 a b) rfl rfl rfl (by simp [args2]) rfl rfl rfl rfl (by simp [args2])
    (by
      by_contra hcon
      push Not at hcon
      exact hne ⟨hcon _ (by simp [args2]), hcon _ (by simp [args2]), hcon _ (by simp [args2]), hcon _ (by simp [args2])⟩)
    (by rw [fortran_det]; exact hdet)

/-- The zero matrix is not reported. -/
theorem solve_zero {g : Gels K} (hg : GelsContract g) (a b : Nat → K) (h : a 0 = 0 ∧ a 1 = 0 ∧ a 2 = 0 ∧ a 3 = 0) :
    (g (args2 a b)).info = 0 ∧ (g (args2 a b)).b = [0, 0] :=
  hg.zero (args2 a b) rfl rfl le_rfl (by simp [args2]) rfl rfl rfl rfl (by simp [args2])
    (by
      intro x hx
      simp only [args2, List.mem_cons, List.not_mem_nil, or_false] at hx
      rcases hx with rfl | rfl | rfl | rfl
      · exact h.1
      · exact h.2.1
      · exact h.2.2.1
      · exact h.2.2.2)

/-- The solution is unique. -/
theorem unique2 {a0 a1 a2 a3 x0 x1 y0 y1 : K} (hdet : a0 * a3 - a1 * a2 ≠ 0)
    (h0 : a0 * x0 + a1 * x1 = a0 * y0 + a1 * y1) (h1 : a2 * x0 + a3 * x1 = a2 * y0 + a3 * y1) : x0 = y0 ∧ x1 = y1 := by
  have e0 : (a0 * a3 - a1 * a2) * (x0 - y0) = 0 := by linear_combination a3 * h0 - a1 * h1
  have e1 : (a0 * a3 - a1 * a2) * (x1 - y1) = 0 := by linear_combination a0 * h1 - a2 * h0
  exact ⟨sub_eq_zero.mp ((mul_eq_zero.mp e0).resolve_left hdet), sub_eq_zero.mp ((mul_eq_zero.mp e1).resolve_left hdet)⟩

/-- The test of a point and a triangle in terms of barycentric coordinates. -/
theorem inTri_iff {g : Gels K} (hg : GelsContract g) {pt n0 n1 n2 : Pt K} (h : cross n0 n1 n2 ≠ 0) {u v w : K}
    (hsum : u + v + w = 1) (hx : pt.1 = u * n0.1 + v * n1.1 + w * n2.1) (hy : pt.2 = u * n0.2 + v * n1.2 + w * n2.2) :
    inTri g pt n0 n1 n2 = true ↔ -tol < v ∧ v ≤ 1 + tol ∧ -tol < w ∧ v + w ≤ 1 + tol := by
  have hdet : triMat n0 n1 n2 0 * triMat n0 n1 n2 3 - triMat n0 n1 n2 1 * triMat n0 n1 n2 2 ≠ 0 := by
    have : triMat n0 n1 n2 0 * triMat n0 n1 n2 3 - triMat n0 n1 n2 1 * triMat n0 n1 n2 2 = cross n0 n1 n2 := by
      simp only [triMat, cross]; ring
    rw [this]; exact h
  obtain ⟨h0, h1, h2⟩ := solve_regular hg _ (triRhs pt n0) hdet
  have hu : u = 1 - v - w := by linear_combination hsum
  obtain ⟨e0, e1⟩ := unique2 (y0 := v) (y1 := w) hdet
    (h1.trans (by simp only [triMat, triRhs]; rw [hx, hu]; ring))
    (h2.trans (by simp only [triMat, triRhs]; rw [hy, hu]; ring))
  unfold inTri
  simp only [h0, lt_irrefl, if_false, e0, e1, Bool.and_eq_true, decide_eq_true_eq]
  tauto

theorem triMat_zero {n0 n1 n2 : Pt K} : (triMat n0 n1 n2 0 = 0 ∧ triMat n0 n1 n2 1 = 0 ∧ triMat n0 n1 n2 2 = 0 ∧ triMat n0 n1 n2 3 = 0) ↔
    n0 = n1 ∧ n0 = n2 := by
  simp only [triMat, sub_eq_zero, Prod.ext_iff]
  constructor
  · rintro ⟨h0, h1, h2, h3⟩; exact ⟨⟨h0.symm, h2.symm⟩, h1.symm, h3.symm⟩
  · rintro ⟨⟨h0, h2⟩, h1, h3⟩; exact ⟨h0.symm, h1.symm, h2.symm, h3.symm⟩

theorem inTri_degenerate {g : Gels K} (hg : GelsContract g) {pt n0 n1 n2 : Pt K} (hne : ¬ (n0 = n1 ∧ n0 = n2))
    (h : cross n0 n1 n2 = 0) : inTri g pt n0 n1 n2 = false := by
  have := solve_singular hg (triMat n0 n1 n2) (triRhs pt n0) (by rw [triMat_zero]; exact hne) (by
    rw [← h]; simp only [triMat, cross]; ring)
  unfold inTri
  simp only [if_pos this]

/-- A triangle that is a point accepts everything. -/
theorem inTri_point [IsStrictOrderedRing K] {g : Gels K} (hg : GelsContract g) {pt n : Pt K} : inTri g pt n n n = true := by
  obtain ⟨e1, e2⟩ := solve_zero hg (triMat n n n) (triRhs pt n) (triMat_zero.2 ⟨rfl, rfl⟩)
  have ht : (0 : K) < tol := by unfold tol; positivity
  unfold inTri
  simp only [e1, e2, lt_irrefl, if_false, Bool.and_eq_true, decide_eq_true_eq, List.getD_cons_zero, List.getD_cons_succ]
  refine ⟨⟨⟨?_, ?_⟩, ?_⟩, ?_⟩ <;> linarith

end field

/-! ### Real coordinates -/

theorem tol_real : (tol : ℝ) = 1 / 1000000000000 := by simp [tol]

/-- Barycentric coordinates. -/
theorem exists_bary {a b c : P2} (h : cross a b c ≠ 0) (p : P2) :
    ∃ u v w : ℝ, u + v + w = 1 ∧ p = u • a + v • b + w • c := by
  refine ⟨cross p b c / cross a b c, cross a p c / cross a b c, cross a b p / cross a b c, ?_, ?_⟩
  · field_simp
    simp only [cross]; ring
  · ext
    · simp only [Prod.fst_add, Prod.smul_fst, smul_eq_mul]
      field_simp
      simp only [cross]; ring
    · simp only [Prod.snd_add, Prod.smul_snd, smul_eq_mul]
      field_simp
      simp only [cross]; ring

/-- A point of a triangle has non-negative barycentric coordinates. -/
theorem tri_bary {a b c p : P2} (hp : p ∈ tri a b c) : ∃ u v w : ℝ, 0 ≤ u ∧ 0 ≤ v ∧ 0 ≤ w ∧ u + v + w = 1 ∧
    p = u • a + v • b + w • c := by
  unfold tri at hp
  rw [convexHull_insert (by simp), convexHull_pair, mem_convexJoin] at hp
  obtain ⟨a', ha', z, ⟨s, t, hs, ht, hst, rfl⟩, k, l, hk, hl, hkl, rfl⟩ := hp
  rw [Set.mem_singleton_iff] at ha'
  subst ha'
  refine ⟨k, l * s, l * t, hk, by positivity, by positivity, ?_, ?_⟩
  · linear_combination hkl + l * hst
  · rw [smul_add, smul_smul, smul_smul, add_assoc]

theorem comb_fst (u v w : ℝ) (a b c : P2) : (u • a + v • b + w • c).1 = u * a.1 + v * b.1 + w * c.1 := rfl
theorem comb_snd (u v w : ℝ) (a b c : P2) : (u • a + v • b + w • c).2 = u * a.2 + v * b.2 + w * c.2 := rfl

/-- Points of the triangle are accepted. -/
theorem inTri_of_mem {g : Gels ℝ} (hg : GelsContract g) {a b c p : P2} (h : cross a b c ≠ 0) (hp : p ∈ tri a b c) :
    inTri g p a b c = true := by
  obtain ⟨u, v, w, hu, hv, hw, hs, rfl⟩ := tri_bary hp
  rw [inTri_iff hg h hs (comb_fst _ _ _ _ _ _) (comb_snd _ _ _ _ _ _), tol_real]
  refine ⟨?_, ?_, ?_, ?_⟩ <;> linarith

/-- Accepted points have barycentric coordinates that are negative by the tolerance at most. -/
theorem bary_of_inTri {g : Gels ℝ} (hg : GelsContract g) {a b c p : P2} (hnd : ¬ (a = b ∧ a = c)) (h : inTri g p a b c = true) :
    cross a b c ≠ 0 ∧ ∃ u v w : ℝ, u + v + w = 1 ∧ p = u • a + v • b + w • c ∧ -tol ≤ u ∧ -tol < v ∧ -tol < w := by
  have hne : cross a b c ≠ 0 := by
    intro h0; rw [inTri_degenerate hg hnd h0] at h; cases h
  refine ⟨hne, ?_⟩
  obtain ⟨u, v, w, hs, rfl⟩ := exists_bary hne p
  rw [inTri_iff hg hne hs (comb_fst _ _ _ _ _ _) (comb_snd _ _ _ _ _ _)] at h
  exact ⟨u, v, w, hs, rfl, by linarith [h.2.2.2], h.1, h.2.2.1⟩

theorem clearSign_nonneg {u : ℝ} (h : ClearSign u) (h' : -tol ≤ u) : 0 ≤ u := by
  rw [tol_real] at h'
  rcases h with h | h
  · exact h
  · linarith

/-- With clear signs the test is exact. -/
theorem mem_of_inTri {g : Gels ℝ} (hg : GelsContract g) {a b c p : P2} (hnd : ¬ (a = b ∧ a = c))
    (hc : ClearOfSides a b c p) (h : inTri g p a b c = true) : p ∈ tri a b c := by
  obtain ⟨hne, u, v, w, hs, hp, hu, hv, hw⟩ := bary_of_inTri hg hnd h
  obtain ⟨cu, cv, cw⟩ := hc (by rw [← cross_area2]; exact hne) u v w hs hp
  exact mem_tri u v w (clearSign_nonneg cu hu) (clearSign_nonneg cv hv.le) (clearSign_nonneg cw hw.le) hs hp.symm

/-- A convex quadrilateral is not cut into points. -/
theorem ConvexQuad.proper {q : Quad ℝ} (hq : ConvexQuad q) : ¬ (q 0 = q 1 ∧ q 0 = q 3) ∧ ¬ (q 2 = q 3 ∧ q 2 = q 1) := by
  obtain ⟨_, i, hi⟩ := hq
  constructor
  · rintro ⟨h1, h3⟩
    apply hi
    fin_cases i
    · show area2 (q 0) (q 1) (q 2) = 0; rw [← h1]; simp [area2]
    · show area2 (q 1) (q 2) (q 3) = 0; rw [← h1, ← h3]; simp only [area2]; ring
    · show area2 (q 2) (q 3) (q 0) = 0; rw [← h3]; simp only [area2]; ring
    · show area2 (q 3) (q 0) (q 1) = 0; rw [← h3]; simp [area2]
  · rintro ⟨h3, h1⟩
    apply hi
    fin_cases i
    · show area2 (q 0) (q 1) (q 2) = 0; rw [← h1]; simp only [area2]; ring
    · show area2 (q 1) (q 2) (q 3) = 0; rw [← h1]; simp [area2]
    · show area2 (q 2) (q 3) (q 0) = 0; rw [← h3]; simp [area2]
    · show area2 (q 3) (q 0) (q 1) = 0; rw [← h3, ← h1]; simp only [area2]; ring

theorem inCell_of_mem {g : Gels ℝ} (hg : GelsContract g) {q : Quad ℝ} (hq : ConvexQuad q) {p : P2} (hp : p ∈ quadRegion q) :
    inCell g p q = true := by
  unfold inCell
  rw [Bool.or_eq_true]
  rcases (region_tris hq p).mp hp with ⟨h1, hp⟩ | ⟨h2, hp⟩
  · exact Or.inl (inTri_of_mem hg h1 hp)
  · exact Or.inr (inTri_of_mem hg h2 hp)

theorem inCell_iff {g : Gels ℝ} (hg : GelsContract g) {q : Quad ℝ} (hq : ConvexQuad q) {p : P2}
    (hc : ClearOfSides (q 0) (q 1) (q 3) p ∧ ClearOfSides (q 2) (q 3) (q 1) p) :
    inCell g p q = true ↔ p ∈ quadRegion q := by
  constructor
  · intro h
    unfold inCell at h
    rw [Bool.or_eq_true] at h
    rcases h with h | h
    · exact tri_sub_region _ _ _ _ (mem_of_inTri hg (ConvexQuad.proper hq).1 hc.1 h)
    · exact tri_sub_region _ _ _ _ (mem_of_inTri hg (ConvexQuad.proper hq).2 hc.2 h)
  · exact inCell_of_mem hg hq

/-- The crossing test finds the parameters of the crossing of the lines. -/
theorem edgeX_some {g : Gels ℝ} (hg : GelsContract g) {a0 a1 b0 b1 p : P2} :
    edgeX g a0 a1 b0 b1 = some p ↔
      (a1.1 - a0.1) * (b1.2 - b0.2) - (a1.2 - a0.2) * (b1.1 - b0.1) ≠ 0 ∧
      ∃ s t : ℝ, a0 + s • (a1 - a0) = b0 + t • (b1 - b0) ∧ p = a0 + s • (a1 - a0) ∧
        tol < s ∧ s ≤ 1 - tol ∧ tol < t ∧ t ≤ 1 - tol := by
  have hd : edgeMat a0 a1 b0 b1 0 * edgeMat a0 a1 b0 b1 3 - edgeMat a0 a1 b0 b1 1 * edgeMat a0 a1 b0 b1 2 =
      -((a1.1 - a0.1) * (b1.2 - b0.2) - (a1.2 - a0.2) * (b1.1 - b0.1)) := by
    simp only [edgeMat]; ring
  by_cases hz : (a1.1 - a0.1) * (b1.2 - b0.2) - (a1.2 - a0.2) * (b1.1 - b0.1) = 0
  · by_cases h0 : edgeMat a0 a1 b0 b1 0 = 0 ∧ edgeMat a0 a1 b0 b1 1 = 0 ∧ edgeMat a0 a1 b0 b1 2 = 0 ∧ edgeMat a0 a1 b0 b1 3 = 0
    · obtain ⟨e1, e2⟩ := solve_zero hg (edgeMat a0 a1 b0 b1) (triRhs b0 a0) h0
      have ht : ¬ (tol : ℝ) < 0 := by rw [tol_real]; norm_num
      unfold edgeX
      simp [e1, e2, ht, hz]
    · have := solve_singular hg (edgeMat a0 a1 b0 b1) (triRhs b0 a0) h0 (by rw [hd, hz, neg_zero])
      unfold edgeX
      simp only [if_pos this, hz, ne_eq, not_true_eq_false, false_and, reduceCtorEq]
  · have hdet : edgeMat a0 a1 b0 b1 0 * edgeMat a0 a1 b0 b1 3 - edgeMat a0 a1 b0 b1 1 * edgeMat a0 a1 b0 b1 2 ≠ 0 := by
      rw [hd]; exact neg_ne_zero.mpr hz
    obtain ⟨h0, h1, h2⟩ := solve_regular hg (edgeMat a0 a1 b0 b1) (triRhs b0 a0) hdet
    unfold edgeX
    simp only [h0, lt_irrefl, if_false]
    generalize hs : (g (args2 (edgeMat a0 a1 b0 b1) (triRhs b0 a0))).b.getD 0 0 = s at *
    generalize ht : (g (args2 (edgeMat a0 a1 b0 b1) (triRhs b0 a0))).b.getD 1 0 = t at *
    have hpt : ((a0.1 + s * (a1.1 - a0.1), a0.2 + s * (a1.2 - a0.2)) : P2) = a0 + s • (a1 - a0) := by
      ext <;> simp
    have heq : a0 + s • (a1 - a0) = b0 + t • (b1 - b0) := by
      simp only [edgeMat, triRhs] at h1 h2
      ext
      · simp only [Prod.fst_add, Prod.smul_fst, Prod.fst_sub, smul_eq_mul]; linear_combination h1
      · simp only [Prod.snd_add, Prod.smul_snd, Prod.snd_sub, smul_eq_mul]; linear_combination h2
    constructor
    · intro h
      split at h
      · rename_i hc
        cases h
        exact ⟨hz, s, t, heq, hpt, hc⟩
      · cases h
    · rintro ⟨_, s', t', heq', hp, hc⟩
      have e : s = s' ∧ t = t' := by
        refine unique2 (a0 := edgeMat a0 a1 b0 b1 0) (a1 := edgeMat a0 a1 b0 b1 1) (a2 := edgeMat a0 a1 b0 b1 2)
          (a3 := edgeMat a0 a1 b0 b1 3) hdet ?_ ?_
        · have := congrArg Prod.fst heq'
          simp only [Prod.fst_add, Prod.smul_fst, Prod.fst_sub, smul_eq_mul] at this
          rw [h1]; simp only [edgeMat, triRhs]; linear_combination -this
        · have := congrArg Prod.snd heq'
          simp only [Prod.snd_add, Prod.smul_snd, Prod.snd_sub, smul_eq_mul] at this
          rw [h2]; simp only [edgeMat, triRhs]; linear_combination -this
      obtain ⟨rfl, rfl⟩ := e
      rw [if_pos hc, hpt, hp]

theorem mem_openSegment_iff {a b p : P2} : p ∈ openSegment ℝ a b ↔ ∃ s : ℝ, 0 < s ∧ s < 1 ∧ p = a + s • (b - a) := by
  constructor
  · rintro ⟨u, v, hu, hv, huv, rfl⟩
    refine ⟨v, hv, by linarith, ?_⟩
    obtain rfl : u = 1 - v := by linarith
    ext <;> simp <;> ring
  · rintro ⟨s, h0, h1, rfl⟩
    exact ⟨1 - s, s, by linarith, h0, by ring, by ext <;> simp <;> ring⟩

/-- With clear crossings the test finds exactly the points in both open edges. -/
theorem edgeX_clear {g : Gels ℝ} (hg : GelsContract g) {a0 a1 b0 b1 p : P2} (hc : ClearCrossing a0 a1 b0 b1) :
    edgeX g a0 a1 b0 b1 = some p ↔ (a1 - a0).1 * (b1 - b0).2 - (a1 - a0).2 * (b1 - b0).1 ≠ 0 ∧
      p ∈ openSegment ℝ a0 a1 ∧ p ∈ openSegment ℝ b0 b1 := by
  rw [edgeX_some hg]
  have htol : (0 : ℝ) < tol := by rw [tol_real]; norm_num
  constructor
  · rintro ⟨hne, s, t, heq, rfl, h1, h2, h3, h4⟩
    refine ⟨hne, mem_openSegment_iff.mpr ⟨s, by linarith, by linarith, rfl⟩, ?_⟩
    rw [heq]
    exact mem_openSegment_iff.mpr ⟨t, by linarith, by linarith, rfl⟩
  · rintro ⟨hne, hp1, hp2⟩
    obtain ⟨s, s0, s1, rfl⟩ := mem_openSegment_iff.mp hp1
    obtain ⟨t, t0, t1, heq⟩ := mem_openSegment_iff.mp hp2
    obtain ⟨cs, ct⟩ := hc hne s t heq
    have key : ∀ r : ℝ, 0 < r → r < 1 → ClearParam r → tol < r ∧ r ≤ 1 - tol := by
      intro r r0 r1 hr
      rw [tol_real]
      rcases hr with h | h | h
      · linarith
      · exact h
      · linarith
    have ks := key s s0 s1 cs
    have kt := key t t0 t1 ct
    exact ⟨hne, s, t, heq, rfl, ks.1, ks.2, kt.1, kt.2⟩

theorem node_cast (i : Fin 4) : node (i : Nat) = i := by
  apply Fin.ext
  show (i : Nat) % 4 = i
  omega

theorem node_succ (i : Nat) : node (i + 1) = node i + 1 := by
  apply Fin.ext
  simp only [node, Fin.val_add, Fin.val_one]
  omega

theorem mem_nodesIn {g : Gels ℝ} {nodes quad : Quad ℝ} {p : P2} :
    p ∈ nodesIn g nodes quad ↔ ∃ i, p = nodes i ∧ inCell g p quad = true := by
  unfold nodesIn nodeHit
  simp only [List.mem_flatMap, List.mem_range]
  constructor
  · rintro ⟨i, _, hp⟩
    split at hp
    · rename_i h
      rw [List.mem_singleton] at hp
      subst hp
      exact ⟨node i, rfl, h⟩
    · cases hp
  · rintro ⟨i, rfl, h⟩
    refine ⟨i, i.2, ?_⟩
    rw [node_cast, if_pos h]
    exact List.mem_singleton.mpr rfl

theorem mem_crossings {g : Gels ℝ} {q1 q2 : Quad ℝ} {p : P2} :
    p ∈ crossings g q1 q2 ↔ ∃ i j, edgeX g (q1 i) (q1 (i + 1)) (q2 j) (q2 (j + 1)) = some p := by
  unfold crossings edgeHit
  simp only [List.mem_flatMap, List.mem_range, Option.mem_toList, Option.mem_def]
  constructor
  · rintro ⟨i, _, j, _, h⟩
    rw [node_succ, node_succ] at h
    exact ⟨node i, node j, h⟩
  · rintro ⟨i, j, h⟩
    refine ⟨i, i.2, j, j.2, ?_⟩
    rw [node_succ, node_succ, node_cast, node_cast]
    exact h

/-- The collected points are the corner points. -/
theorem collected_eq {g : Gels ℝ} (hg : GelsContract g) {q1 q2 : Quad ℝ} (h1 : ConvexQuad q1) (h2 : ConvexQuad q2)
    (hc : ClearPair q1 q2) : ptsOf (collected g q1 q2) = cornerPoints q1 q2 := by
  ext p
  show p ∈ collected g q1 q2 ↔ _
  unfold collected
  rw [List.mem_append, List.mem_append, mem_nodesIn, mem_nodesIn, mem_crossings, or_assoc]
  refine or_congr ?_ (or_congr ?_ ?_)
  · refine exists_congr fun i => and_congr_right fun hp => ?_
    rw [hp]; exact inCell_iff hg h2 (hc.nodes12 i)
  · refine exists_congr fun i => and_congr_right fun hp => ?_
    rw [hp]; exact inCell_iff hg h1 (hc.nodes21 i)
  · exact exists_congr fun i => exists_congr fun j => edgeX_clear hg (hc.edges i j)

theorem corner_finite {g : Gels ℝ} (hg : GelsContract g) {q1 q2 : Quad ℝ} (h1 : ConvexQuad q1) (h2 : ConvexQuad q2)
    (hc : ClearPair q1 q2) : (cornerPoints q1 q2).Finite := by
  rw [← collected_eq hg h1 h2 hc]
  exact List.finite_toSet _

end Sg.QuadIntersect
