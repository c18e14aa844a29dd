import Verif.Proof.Triangulate
/-
The first triangle and the whole construction.
-/
namespace Sg.Triangulate
open MeasureTheory Sg.Plane Sg.Spec

/-- More points of the hull may be added. -/
theorem hullInv_mono {S S' : Set P2} {E : Set (P2 × P2)} (h : HullInv S E) (h1 : S ⊆ S') (h2 : S' ⊆ convexHull ℝ S) :
    HullInv S' E ∧ convexHull ℝ S' = convexHull ℝ S := by
  have hE : convexHull ℝ S' = convexHull ℝ S :=
    Set.Subset.antisymm (convexHull_min h2 (convex_convexHull ℝ S)) (convexHull_mono h1)
  refine ⟨⟨?_, ?_, ?_, h.pred, h.succ, ?_⟩, hE⟩
  · intro e he s hs; exact h.hull_left he (h2 hs)
  · intro e he
    obtain ⟨s, hs, h3⟩ := h.strict e he
    exact ⟨s, h1 hs, h3⟩
  · intro e he; exact ⟨h1 (h.mem e he).1, h1 (h.mem e he).2⟩
  · intro x hx; rw [hE]; exact h.hull x hx

/-- Points on a line through `A`, `B`. -/
theorem on_line {A B X : P2} (hAB : A ≠ B) (h : cross A B X = 0) : ∃ t : ℝ, X = A + t • (B - A) := by
  have hn : 0 < (B.1 - A.1) ^ 2 + (B.2 - A.2) ^ 2 := by
    by_contra hcon
    apply hAB
    have h1 : (B.1 - A.1) ^ 2 = 0 := by nlinarith [sq_nonneg (B.1 - A.1), sq_nonneg (B.2 - A.2)]
    have h2 : (B.2 - A.2) ^ 2 = 0 := by nlinarith [sq_nonneg (B.1 - A.1), sq_nonneg (B.2 - A.2)]
    have h1 := pow_eq_zero_iff (two_ne_zero) |>.mp h1
    have h2 := pow_eq_zero_iff (two_ne_zero) |>.mp h2
    ext <;> linarith
  refine ⟨((B.1 - A.1) * (X.1 - A.1) + (B.2 - A.2) * (X.2 - A.2)) / ((B.1 - A.1) ^ 2 + (B.2 - A.2) ^ 2), ?_⟩
  simp only [cross] at h
  ext
  · simp only [Prod.fst_add, Prod.smul_fst, Prod.fst_sub, smul_eq_mul]
    field_simp
    linear_combination -(B.2 - A.2) * h
  · simp only [Prod.snd_add, Prod.smul_snd, Prod.snd_sub, smul_eq_mul]
    field_simp
    linear_combination (B.1 - A.1) * h

/-- Collinear points further than the tolerance apart have a dot product beyond the tolerance, or not positive. -/
theorem dot_line {A B : P2} {t e : ℝ} (ht : 0 < t) (he : 0 < e)
    (h1 : e < (B.1 - A.1) ^ 2 + (B.2 - A.2) ^ 2) (h2 : e < t ^ 2 * ((B.1 - A.1) ^ 2 + (B.2 - A.2) ^ 2)) :
    e < t * ((B.1 - A.1) ^ 2 + (B.2 - A.2) ^ 2) := by
  set L := (B.1 - A.1) ^ 2 + (B.2 - A.2) ^ 2
  by_contra hcon
  rw [not_lt] at hcon
  have : e * e < L * (t ^ 2 * L) := mul_lt_mul'' h1 h2 he.le he.le
  have hL : 0 < L := he.trans h1
  have : (t * L) * (t * L) ≤ e * e := mul_le_mul hcon hcon (by positivity) he.le
  nlinarith

/-- The two extreme points of three points on a line. -/
theorem extrema_ok {m : Mem ℝ} (hm : m.readable ≤ m.buf.length) (hclean : TolClean (m.first m.readable)) {i0 i1 i2 : Nat}
    (h0 : i0 < m.readable) (h1 : i1 < m.readable) (h2 : i2 < m.readable) (hne : m.pt i0 ≠ m.pt i1)
    (hz : cross (m.pt i0) (m.pt i1) (m.pt i2) = 0) :
    ∃ e : Nat × Nat, m.extrema i0 i1 i2 = .ok e ∧ (e.1 = i0 ∨ e.1 = i1 ∨ e.1 = i2) ∧ (e.2 = i0 ∨ e.2 = i1 ∨ e.2 = i2) ∧
      m.pt e.1 ≠ m.pt e.2 ∧
      m.pt i0 ∈ segment ℝ (m.pt e.1) (m.pt e.2) ∧ m.pt i1 ∈ segment ℝ (m.pt e.1) (m.pt e.2) ∧
      m.pt i2 ∈ segment ℝ (m.pt e.1) (m.pt e.2) := by
  have dok : ∀ i j k, i < m.readable → j < m.readable → k < m.readable → m.dot i j k = .ok
      (0 + ((m.pt j).1 - (m.pt i).1) * ((m.pt k).1 - (m.pt i).1) + ((m.pt j).2 - (m.pt i).2) * ((m.pt k).2 - (m.pt i).2)) := by
    intro i j k hi hj hk
    simp only [Mem.dot, Mem.read_ok hm hi, Mem.read_ok hm hj, Mem.read_ok hm hk, bind, Except.bind, pure, Except.pure]
  simp only [Mem.extrema, dok i0 i1 i2 h0 h1 h2, dok i1 i2 i0 h1 h2 h0, dok i2 i0 i1 h2 h0 h1, bind, Except.bind, pure,
    Except.pure]
  have hd : ∀ i j, i < m.readable → j < m.readable → m.pt i ≠ m.pt j →
      eps < ((m.pt j).1 - (m.pt i).1) ^ 2 + ((m.pt j).2 - (m.pt i).2) ^ 2 := by
    intro i j hi hj hne
    rw [eps_real]
    exact hclean.dist _ ⟨i, hi, rfl⟩ _ ⟨j, hj, rfl⟩ hne
  have heps : (0 : ℝ) < eps := by rw [eps_real]; norm_num
  have k01 := hd i0 i1 h0 h1 hne
  have k02 := hd i0 i2 h0 h2
  have k12 := hd i1 i2 h1 h2
  generalize hA : m.pt i0 = A at *
  generalize hB : m.pt i1 = B at *
  obtain ⟨t, ht⟩ := on_line hne hz
  have x1 : (m.pt i2).1 - A.1 = t * (B.1 - A.1) := by rw [ht]; simp
  have x2 : (m.pt i2).2 - A.2 = t * (B.2 - A.2) := by rw [ht]; simp
  have y1 : (m.pt i2).1 - B.1 = (1 - t) * (A.1 - B.1) := by linear_combination x1
  have y2 : (m.pt i2).2 - B.2 = (1 - t) * (A.2 - B.2) := by linear_combination x2
  generalize hX : m.pt i2 = X at *
  have e0 : 0 + (B.1 - A.1) * (X.1 - A.1) + (B.2 - A.2) * (X.2 - A.2) = t * ((B.1 - A.1) ^ 2 + (B.2 - A.2) ^ 2) := by
    rw [x1, x2]; ring
  have e1 : 0 + (X.1 - B.1) * (A.1 - B.1) + (X.2 - B.2) * (A.2 - B.2) = (1 - t) * ((B.1 - A.1) ^ 2 + (B.2 - A.2) ^ 2) := by
    rw [y1, y2]; ring
  rw [e0, e1]
  set L := (B.1 - A.1) ^ 2 + (B.2 - A.2) ^ 2 with hL
  have n0 : t ≠ 0 → A ≠ X := by
    rintro h0 rfl
    have : t * L = 0 := by rw [hL]; rw [← e0]; ring
    rcases mul_eq_zero.mp this with h | h
    · exact h0 h
    · linarith
  have n1 : t ≠ 1 → B ≠ X := by
    rintro h0 rfl
    have : (1 - t) * L = 0 := by rw [hL]; rw [← e1]; ring
    rcases mul_eq_zero.mp this with h | h
    · exact h0 (by linarith)
    · linarith
  by_cases hc0 : eps < t * L
  · rw [if_pos hc0]
    have ht0 : 0 < t := by
      by_contra hcon
      rw [not_lt] at hcon
      have : t * L ≤ 0 := mul_nonpos_of_nonpos_of_nonneg hcon (by linarith)
      linarith
    by_cases hc1 : eps < (1 - t) * L
    · rw [if_pos hc1]
      have ht1 : t < 1 := by
        by_contra hcon
        rw [not_lt] at hcon
        have : (1 - t) * L ≤ 0 := mul_nonpos_of_nonpos_of_nonneg (by linarith) (by linarith)
        linarith
      refine ⟨(i0, i1), rfl, by simp, by simp, ?_⟩
      simp only [hA, hB]
      refine ⟨hne, left_mem_segment ℝ A B, right_mem_segment ℝ A B, ⟨1 - t, t, by linarith, by linarith, by ring, ?_⟩⟩
      rw [ht]; module
    · rw [if_neg hc1]
      have ht1 : 1 ≤ t := by
        by_contra hcon
        rw [not_le] at hcon
        have hk := k12 (n1 (by linarith))
        rw [y1, y2] at hk
        exact hc1 (dot_line (by linarith) heps k01 (by nlinarith [hk]))
      refine ⟨(i2, i0), rfl, by simp, by simp, ?_⟩
      simp only [hA, hX]
      refine ⟨(n0 (by linarith)).symm, right_mem_segment ℝ X A, ⟨1 / t, 1 - 1 / t, by positivity, ?_, by ring, ?_⟩,
        left_mem_segment ℝ X A⟩
      · rw [sub_nonneg, div_le_one (by linarith)]; exact ht1
      · rw [ht, smul_add, smul_smul, one_div, inv_mul_cancel₀ (by linarith)]; module
  · rw [if_neg hc0]
    have ht0 : t ≤ 0 := by
      by_contra hcon
      rw [not_le] at hcon
      have hk := k02 (n0 (by linarith))
      rw [x1, x2] at hk
      exact hc0 (dot_line hcon heps k01 (by nlinarith [hk]))
    refine ⟨(i1, i2), rfl, by simp, by simp, ?_⟩
    simp only [hB, hX]
    have h1t : (1 - t) ≠ 0 := by linarith
    refine ⟨n1 (by linarith), ⟨-t / (1 - t), 1 / (1 - t), ?_, ?_, ?_, ?_⟩, left_mem_segment ℝ B X, right_mem_segment ℝ B X⟩
    · exact div_nonneg (by linarith) (by linarith)
    · exact div_nonneg (by linarith) (by linarith)
    · field_simp; ring
    · rw [ht]
      ext
      · simp only [Prod.fst_add, Prod.smul_fst, Prod.fst_sub, smul_eq_mul]
        field_simp; ring
      · simp only [Prod.snd_add, Prod.smul_snd, Prod.snd_sub, smul_eq_mul]
        field_simp; ring

/-- While the points seen so far are on a line: `i0`, `i1` are the extreme ones. -/
structure LineInv (m : Mem ℝ) (i0 i1 i2 : Nat) : Prop where
  lt0 : i0 < i2
  lt1 : i1 < i2
  ne : m.pt i0 ≠ m.pt i1
  seg : ∀ j, j < i2 → m.pt j ∈ segment ℝ (m.pt i0) (m.pt i1)

theorem fabs_eq (x : ℝ) : fabs x = |x| := by
  unfold fabs
  split
  · rename_i h; rw [abs_of_neg h]
  · rename_i h; rw [abs_of_nonneg (not_lt.mp h)]

/-- The loop looking for the first triangle. -/
theorem firstLoop_ok {m : Mem ℝ} (hm : m.readable ≤ m.buf.length) (hsz : m.size ≤ m.readable) (hclean : TolClean (m.first m.readable)) (k : Nat) :
    ∀ i0 i1 i2 : Nat, i2 < m.readable → k + i2 = m.size → LineInv m i0 i1 i2 →
    (∃ j0 j1 j2 : Nat, m.firstLoop k i0 i1 i2 (fabs (cross (m.pt i0) (m.pt i1) (m.pt i2)))
        = .ok (j0, j1, j2, fabs (cross (m.pt j0) (m.pt j1) (m.pt j2))) ∧ j2 < m.readable ∧ LineInv m j0 j1 j2 ∧
        (fabs (cross (m.pt j0) (m.pt j1) (m.pt j2)) < eps → m.size = j2)) ∨
    (m.firstLoop k i0 i1 i2 (fabs (cross (m.pt i0) (m.pt i1) (m.pt i2))) = .error .outOfBounds ∧ m.readable = m.size ∧
      ∃ j0 j1, LineInv m j0 j1 m.readable) := by
  induction k with
  | zero =>
    intro i0 i1 i2 hi hk hl
    left
    exact ⟨i0, i1, i2, rfl, hi, hl, fun _ => by omega⟩
  | succ k ih =>
    intro i0 i1 i2 hi hk hl
    have heps : (0 : ℝ) < eps := by rw [eps_real]; norm_num
    by_cases ha : fabs (cross (m.pt i0) (m.pt i1) (m.pt i2)) < eps
    · have l0 := hl.lt0
      have l1 := hl.lt1
      have hz : cross (m.pt i0) (m.pt i1) (m.pt i2) = 0 := by
        rcases hclean.area _ ⟨i0, by omega, rfl⟩ _ ⟨i1, by omega, rfl⟩ _ ⟨i2, hi, rfl⟩ with h | h
        · exact h
        · rw [fabs_eq, eps_real] at ha
          rw [← cross_area2] at h
          linarith
      obtain ⟨e, he, hm1, hm2, hne, s0, s1, s2⟩ := extrema_ok hm hclean (by omega) (by omega) hi hl.ne hz
      have hl' : LineInv m e.1 e.2 (i2 + 1) := by
        refine ⟨by omega, by omega, hne, ?_⟩
        intro j hj
        by_cases hj2 : j = i2
        · rw [hj2]; exact s2
        · exact (convex_segment _ _).segment_subset s0 s1 (hl.seg j (by omega))
      simp only [Mem.firstLoop, if_pos ha, he, bind, Except.bind]
      have b1 := hl'.lt0
      have b2 := hl'.lt1
      by_cases hr : i2 + 1 < m.readable
      · rw [Mem.area_ok hm (by omega) (by omega) hr]
        exact ih e.1 e.2 (i2 + 1) hr (by omega) hl'
      · right
        have hre : i2 + 1 = m.readable := by omega
        refine ⟨?_, by omega, e.1, e.2, hre ▸ hl'⟩
        simp only [Mem.area, Mem.read_ok hm (show e.1 < m.readable by omega), Mem.read_ok hm (show e.2 < m.readable by omega),
          Mem.read_err hr, bind, Except.bind]
    · left
      refine ⟨i0, i1, i2, ?_, hi, hl, fun h => absurd h ha⟩
      simp only [Mem.firstLoop, if_neg ha]

/-- The first triangle, oriented. -/
theorem meshInv_first {m : Mem ℝ} {i0 i1 i2 j0 j1 j2 : Nat} (hl : LineInv m i0 i1 i2)
    (hj : (j0, j1, j2) = (i0, i1, i2) ∨ (j0, j1, j2) = (i0, i2, i1)) (hpos : 0 < cross (m.pt j0) (m.pt j1) (m.pt j2)) :
    MeshInv m (i2 + 1) { edges := setInsert lt2 (setInsert lt2 (setInsert lt2 [] (j0, j1)) (j1, j2)) (j2, j0)
                         tris := setInsert lt3 [] (j0, j1, j2) } := by
  have hlt : j0 < i2 + 1 ∧ j1 < i2 + 1 ∧ j2 < i2 + 1 := by
    have := hl.lt0
    have := hl.lt1
    rcases hj with h | h <;> simp only [Prod.mk.injEq] at h <;> omega
  have n01 : m.pt j0 ≠ m.pt j1 := by
    intro h0; rw [h0, cross_aa] at hpos; exact lt_irrefl _ hpos
  have n12 : m.pt j1 ≠ m.pt j2 := by
    intro h0; rw [h0, cross_self_right] at hpos; exact lt_irrefl _ hpos
  have n20 : m.pt j2 ≠ m.pt j0 := by
    intro h0; rw [h0, cross_self_left] at hpos; exact lt_irrefl _ hpos
  have i01 : j0 ≠ j1 := fun h => n01 (h ▸ rfl)
  have i12 : j1 ≠ j2 := fun h => n12 (h ▸ rfl)
  have i20 : j2 ≠ j0 := fun h => n20 (h ▸ rfl)
  have hperm : (setInsert lt2 (setInsert lt2 (setInsert lt2 [] (j0, j1)) (j1, j2)) (j2, j0)).Perm
      [(j2, j0), (j1, j2), (j0, j1)] := by
    have p1 : setInsert lt2 [] (j0, j1) = [(j0, j1)] := rfl
    rw [p1]
    have p2 : (setInsert lt2 [(j0, j1)] (j1, j2)).Perm [(j1, j2), (j0, j1)] := by
      apply setInsert_perm lt2_tri
      simp only [List.mem_singleton, Prod.mk.injEq]
      omega
    refine (setInsert_perm lt2_tri _ _ ?_).trans (p2.cons _)
    rw [p2.mem_iff]
    simp only [List.mem_cons, Prod.mk.injEq, List.not_mem_nil, or_false]
    omega
  have hmemE : ∀ x, x ∈ setInsert lt2 (setInsert lt2 (setInsert lt2 [] (j0, j1)) (j1, j2)) (j2, j0) ↔
      x = (j2, j0) ∨ x = (j1, j2) ∨ x = (j0, j1) := by
    intro x; rw [hperm.mem_iff]; simp
  have hset : {e | ∃ i ∈ setInsert lt2 (setInsert lt2 (setInsert lt2 [] (j0, j1)) (j1, j2)) (j2, j0), m.edge i = e}
      = {(m.pt j0, m.pt j1), (m.pt j1, m.pt j2), (m.pt j2, m.pt j0)} := by
    ext x
    simp only [Set.mem_insert_iff, Set.mem_singleton_iff]
    constructor
    · rintro ⟨i, hi, rfl⟩
      rcases (hmemE i).mp hi with rfl | rfl | rfl <;> simp [Mem.edge]
    · rintro (rfl | rfl | rfl)
      · exact ⟨(j0, j1), (hmemE _).mpr (by simp), rfl⟩
      · exact ⟨(j1, j2), (hmemE _).mpr (by simp), rfl⟩
      · exact ⟨(j2, j0), (hmemE _).mpr (by simp), rfl⟩
  have hsub1 : ({m.pt j0, m.pt j1, m.pt j2} : Set P2) ⊆ m.first (i2 + 1) := by
    rintro x (rfl | rfl | rfl)
    · exact ⟨j0, hlt.1, rfl⟩
    · exact ⟨j1, hlt.2.1, rfl⟩
    · exact ⟨j2, hlt.2.2, rfl⟩
  have htri : tri (m.pt j0) (m.pt j1) (m.pt j2) = tri (m.pt i0) (m.pt i1) (m.pt i2) := by
    rcases hj with h | h <;> simp only [Prod.mk.injEq] at h <;> obtain ⟨rfl, rfl, rfl⟩ := h
    · rfl
    · unfold tri
      congr 1
      rw [Set.pair_comm]
  have hsub2 : m.first (i2 + 1) ⊆ convexHull ℝ ({m.pt j0, m.pt j1, m.pt j2} : Set P2) := by
    show m.first (i2 + 1) ⊆ tri (m.pt j0) (m.pt j1) (m.pt j2)
    rw [htri]
    rintro x ⟨j, hj', rfl⟩
    have hv := tri_vertices (m.pt i0) (m.pt i1) (m.pt i2)
    by_cases h : j = i2
    · rw [h]; exact hv.2.2
    · exact (convex_convexHull ℝ _).segment_subset hv.1 hv.2.1 (hl.seg j (by omega))
  obtain ⟨hI, hE⟩ := hullInv_mono (hullInv_tri hpos) hsub1 hsub2
  have htris : setInsert lt3 [] (j0, j1, j2) = [(j0, j1, j2)] := rfl
  have hsum : m.triSum [(j0, j1, j2)] = cross (m.pt j0) (m.pt j1) (m.pt j2) := by simp [Mem.triSum]
  refine ⟨?_, ?_, ?_, ?_, ?_, ?_, ?_, ?_, ?_⟩
  · intro x hx
    rcases (hmemE x).mp hx with rfl | rfl | rfl <;> dsimp only <;> omega
  · intro x hx
    rw [htris, List.mem_singleton] at hx
    subst hx
    exact hlt
  · intro x hx y hy hxy
    have h1 := (Prod.ext_iff.mp hxy).1
    simp only [Mem.edge] at h1
    rcases (hmemE x).mp hx with rfl | rfl | rfl <;> rcases (hmemE y).mp hy with rfl | rfl | rfl <;> dsimp only at h1
    · rfl
    · exact absurd h1.symm n12
    · exact absurd h1 n20
    · exact absurd h1 n12
    · rfl
    · exact absurd h1.symm n01
    · exact absurd h1.symm n20
    · exact absurd h1 n01
    · rfl
  · rw [hperm.nodup_iff]
    simp only [List.nodup_cons, List.mem_cons, Prod.mk.injEq, List.not_mem_nil, or_false, not_false_eq_true, List.nodup_nil,
      and_true]
    omega
  · rw [hset]; exact hI
  · rw [htris, hsum]; exact hpos.le
  · intro x hx
    rw [htris, List.mem_singleton] at hx
    subst hx
    exact hpos
  · rw [htris]
    have := hl.lt0
    have := hl.lt1
    have : i0 ≠ i1 := fun h => hl.ne (h ▸ rfl)
    show 1 + 2 ≤ i2 + 1
    omega
  · rw [hE, htris, hsum]
    show volume (tri _ _ _) = _
    rw [volume_tri, abs_of_pos hpos]

/-- What `makeFirstTriangle` can do. -/
theorem makeFirstTriangle_ok {m : Mem ℝ} (hm : m.readable ≤ m.buf.length) (hsz : m.size ≤ m.readable)
    (hclean : TolClean (m.first m.readable)) (hne : m.size ≥ 2 → m.pt 0 ≠ m.pt 1) :
    (m.size < 3 ∧ m.makeFirstTriangle = .ok (m.size, { edges := [], tris := [] })) ∨
    (∃ k t, m.makeFirstTriangle = .ok (k, t) ∧ k ≤ m.readable ∧ 3 ≤ m.size ∧ MeshInv m k t ∧
      ∃ p ∈ m.first m.readable, ∃ q ∈ m.first m.readable, ∃ r ∈ m.first m.readable, cross p q r ≠ 0) ∨
    (∃ k, m.makeFirstTriangle = .ok (k, { edges := [], tris := [] }) ∧ k ≤ m.readable ∧ 3 ≤ m.size ∧
      ∃ i0 i1, LineInv m i0 i1 m.size) ∨
    (m.makeFirstTriangle = .error .outOfBounds ∧ m.readable = m.size ∧ ∃ i0 i1, LineInv m i0 i1 m.readable) := by
  by_cases h3 : m.size < 3
  · left
    refine ⟨h3, ?_⟩
    simp only [Mem.makeFirstTriangle, if_pos h3, pure, Except.pure]
  · right
    have hl : LineInv m 0 1 2 := by
      refine ⟨by omega, by omega, hne (by omega), ?_⟩
      intro j hj
      rcases (show j = 0 ∨ j = 1 by omega) with rfl | rfl
      · exact left_mem_segment _ _ _
      · exact right_mem_segment _ _ _
    have heps : (0 : ℝ) < eps := by rw [eps_real]; norm_num
    rcases firstLoop_ok hm hsz hclean (m.size - 2) 0 1 2 (by omega) (by omega) hl with
      ⟨j0, j1, j2, hok, hj2, hl', hend⟩ | ⟨herr, hr, j0, j1, hl'⟩
    · have b0 := hl'.lt0
      have b1 := hl'.lt1
      by_cases ha : fabs (cross (m.pt j0) (m.pt j1) (m.pt j2)) < eps
      · right; left
        have hs := hend ha
        refine ⟨j2 + 1, ?_, by omega, by omega, j0, j1, hs ▸ hl'⟩
        simp only [Mem.makeFirstTriangle, if_neg h3, Mem.area_ok hm (show 0 < m.readable by omega)
          (show 1 < m.readable by omega) (show 2 < m.readable by omega), bind, Except.bind, hok, if_pos ha, pure, Except.pure]
      · left
        have hcl := hclean.area _ ⟨j0, by omega, rfl⟩ _ ⟨j1, by omega, rfl⟩ _ ⟨j2, hj2, rfl⟩
        rw [← cross_area2] at hcl
        rw [fabs_eq] at ha
        have hcl : eps < |cross (m.pt j0) (m.pt j1) (m.pt j2)| := by
          rcases hcl with h | h
          · rw [h, abs_zero] at ha; exact absurd heps ha
          · rw [eps_real]; exact h
        rw [← fabs_eq] at ha
        have hnd : ∃ p ∈ m.first m.readable, ∃ q ∈ m.first m.readable, ∃ r ∈ m.first m.readable, cross p q r ≠ 0 := by
          refine ⟨_, ⟨j0, by omega, rfl⟩, _, ⟨j1, by omega, rfl⟩, _, ⟨j2, hj2, rfl⟩, ?_⟩
          intro h0
          rw [h0, abs_zero] at hcl
          linarith
        by_cases hn : cross (m.pt j0) (m.pt j1) (m.pt j2) < -eps
        · refine ⟨j2 + 1, _, ?_, by omega, by omega,
            meshInv_first (j0 := j0) (j1 := j2) (j2 := j1) hl' (Or.inr rfl) ?_, hnd⟩
          · simp only [Mem.makeFirstTriangle, if_neg h3, Mem.area_ok hm (show 0 < m.readable by omega)
              (show 1 < m.readable by omega) (show 2 < m.readable by omega), bind, Except.bind, hok, if_neg ha, pure,
              Except.pure, Mem.makeCounterClockwise, Mem.area_ok hm (show j0 < m.readable by omega)
              (show j1 < m.readable by omega) hj2, if_pos hn]
          · have : cross (m.pt j0) (m.pt j2) (m.pt j1) = - cross (m.pt j0) (m.pt j1) (m.pt j2) := by
              simp only [cross]; ring
            linarith
        · refine ⟨j2 + 1, _, ?_, by omega, by omega,
            meshInv_first (j0 := j0) (j1 := j1) (j2 := j2) hl' (Or.inl rfl) ?_, hnd⟩
          · simp only [Mem.makeFirstTriangle, if_neg h3, Mem.area_ok hm (show 0 < m.readable by omega)
              (show 1 < m.readable by omega) (show 2 < m.readable by omega), bind, Except.bind, hok, if_neg ha, pure,
              Except.pure, Mem.makeCounterClockwise, Mem.area_ok hm (show j0 < m.readable by omega)
              (show j1 < m.readable by omega) hj2, if_neg hn]
          · rcases lt_abs.mp hcl with h | h <;> linarith
    · right; right
      refine ⟨?_, hr, j0, j1, hl'⟩
      simp only [Mem.makeFirstTriangle, if_neg h3, Mem.area_ok hm (show 0 < m.readable by omega)
        (show 1 < m.readable by omega) (show 2 < m.readable by omega), bind, Except.bind, herr]

/-! ### Removing repeated points -/

theorem keepDistinct_sub (p : P2) (l : List P2) : ∀ x ∈ keepDistinct p l, x ∈ l := by
  induction l generalizing p with
  | nil => simp [keepDistinct]
  | cons q l ih =>
    intro x hx
    simp only [keepDistinct] at hx
    split at hx
    · rcases List.mem_cons.mp hx with rfl | hx
      · simp
      · exact List.mem_cons_of_mem _ (ih q x hx)
    · exact List.mem_cons_of_mem _ (ih p x hx)

theorem keepDistinct_length (p : P2) (l : List P2) : (keepDistinct p l).length ≤ l.length := by
  induction l generalizing p with
  | nil => simp [keepDistinct]
  | cons q l ih =>
    simp only [keepDistinct]
    split
    · simp only [List.length_cons]; have := ih q; omega
    · simp only [List.length_cons]; have := ih p; omega

theorem distanceSquare_eq (p q : P2) : distanceSquare p q = (q.1 - p.1) ^ 2 + (q.2 - p.2) ^ 2 := by
  unfold distanceSquare; ring

theorem dist_iff {P : Set P2} (hclean : TolClean P) {p q : P2} (hp : p ∈ P) (hq : q ∈ P) :
    eps < distanceSquare p q ↔ p ≠ q := by
  rw [distanceSquare_eq, eps_real]
  constructor
  · rintro h rfl
    norm_num at h
  · exact hclean.dist p hp q hq

theorem keepDistinct_sup {P : Set P2} (hclean : TolClean P) (p : P2) (l : List P2) (hp : p ∈ P) (hl : ∀ x ∈ l, x ∈ P) :
    ∀ x ∈ l, x = p ∨ x ∈ keepDistinct p l := by
  induction l generalizing p with
  | nil => simp
  | cons q l ih =>
    have hq := hl q (by simp)
    intro x hx
    by_cases h : p = q
    · subst h
      have hk : keepDistinct p (p :: l) = keepDistinct p l := by
        rw [keepDistinct, if_neg]
        rw [dist_iff hclean hp hp]; simp
      rw [hk]
      rcases List.mem_cons.mp hx with rfl | hx
      · left; rfl
      · exact ih p hp (fun x hx => hl x (by simp [hx])) x hx
    · have hk : keepDistinct p (q :: l) = q :: keepDistinct q l := by
        rw [keepDistinct, if_pos]
        rw [dist_iff hclean hp hq]; exact h
      rw [hk]
      right
      rcases List.mem_cons.mp hx with rfl | hx
      · simp
      · rcases ih q hq (fun x hx => hl x (by simp [hx])) x hx with rfl | h
        · simp
        · simp [h]

theorem removeDegenerate_mem {l : List P2} (hclean : TolClean (ptsOf l)) (x : P2) :
    x ∈ removeDegenerateSegments l ↔ x ∈ l := by
  cases l with
  | nil => simp [removeDegenerateSegments]
  | cons p l =>
    simp only [removeDegenerateSegments, List.mem_cons]
    constructor
    · rintro (rfl | h)
      · left; rfl
      · right; exact keepDistinct_sub p l x h
    · rintro (rfl | h)
      · left; rfl
      · exact keepDistinct_sup hclean p l (by simp [ptsOf]) (fun x hx => by simp [ptsOf, hx]) x h

theorem removeDegenerate_length (l : List P2) : (removeDegenerateSegments l).length ≤ l.length := by
  cases l with
  | nil => simp [removeDegenerateSegments]
  | cons p l =>
    simp only [removeDegenerateSegments, List.length_cons]
    have := keepDistinct_length p l
    omega

theorem keepDistinct_nodup {P : Set P2} (hclean : TolClean P) (p : P2) (l : List P2) (hp : p ∈ P) (hl : ∀ x ∈ l, x ∈ P)
    (hnd : (p :: l).Nodup) : keepDistinct p l = l := by
  induction l generalizing p with
  | nil => rfl
  | cons q l ih =>
    rw [List.nodup_cons] at hnd
    rw [keepDistinct, if_pos, ih q (hl q (by simp)) (fun x hx => hl x (by simp [hx])) hnd.2]
    rw [dist_iff hclean hp (hl q (by simp))]
    rintro rfl
    exact hnd.1 (by simp)

theorem removeDegenerate_nodup {l : List P2} (hclean : TolClean (ptsOf l)) (hnd : l.Nodup) :
    removeDegenerateSegments l = l := by
  cases l with
  | nil => rfl
  | cons p l =>
    rw [removeDegenerateSegments, keepDistinct_nodup hclean p l (by simp [ptsOf]) (fun x hx => by simp [ptsOf, hx]) hnd]

theorem keepDistinct_head (p : P2) (l : List P2) (q : P2) (h : (keepDistinct p l)[0]? = some q) : eps < distanceSquare p q := by
  induction l with
  | nil => simp [keepDistinct] at h
  | cons r l ih =>
    rw [keepDistinct] at h
    split at h
    · simp at h; subst h; assumption
    · exact ih h

/-! ### The memory after the removal -/

theorem memOf_length (mode : Mode) (l : List P2) : (memOf mode l).buf.length = l.length := by
  have := removeDegenerate_length l
  simp only [memOf, List.length_append, List.length_drop]
  omega

theorem memOf_readable (mode : Mode) (l : List P2) :
    (memOf mode l).size ≤ (memOf mode l).readable ∧ (memOf mode l).readable ≤ l.length := by
  have := removeDegenerate_length l
  cases mode <;> simp only [memOf] <;> omega

theorem pt_of_lt {m : Mem ℝ} {i : Nat} (h : i < m.buf.length) : m.pt i = m.buf[i] := by
  rw [Mem.pt, List.getD, List.getElem?_eq_getElem h]
  rfl

theorem memOf_first_size (mode : Mode) {l : List P2} (hclean : TolClean (ptsOf l)) :
    (memOf mode l).first (memOf mode l).size = ptsOf l := by
  have hlen := removeDegenerate_length l
  have hb := memOf_length mode l
  ext x
  constructor
  · rintro ⟨i, hi, rfl⟩
    have hi' : i < (removeDegenerateSegments l).length := by simpa [memOf] using hi
    rw [pt_of_lt (by omega)]
    simp only [memOf, List.getElem_append_left hi']
    exact (removeDegenerate_mem hclean _).mp (List.getElem_mem hi')
  · intro hx
    have hx' := (removeDegenerate_mem hclean x).mpr hx
    obtain ⟨i, hi, rfl⟩ := List.getElem_of_mem hx'
    refine ⟨i, by simpa [memOf] using hi, ?_⟩
    rw [pt_of_lt (by omega)]
    simp only [memOf, List.getElem_append_left hi]

theorem memOf_first (mode : Mode) {l : List P2} (hclean : TolClean (ptsOf l)) (k : Nat) (h1 : (memOf mode l).size ≤ k)
    (h2 : k ≤ l.length) : (memOf mode l).first k = ptsOf l := by
  have hb := memOf_length mode l
  apply Set.Subset.antisymm
  · rintro x ⟨i, hi, rfl⟩
    rw [pt_of_lt (by omega)]
    have hmem : (memOf mode l).buf[i]'(by omega) ∈ (memOf mode l).buf := List.getElem_mem _
    rcases List.mem_append.mp (show _ ∈ removeDegenerateSegments l ++ l.drop _ from hmem) with h | h
    · exact (removeDegenerate_mem hclean _).mp h
    · exact List.mem_of_mem_drop h
  · rw [← memOf_first_size mode hclean]
    rintro x ⟨i, hi, rfl⟩
    exact ⟨i, by omega, rfl⟩

theorem memOf_ne (mode : Mode) {l : List P2} (h : (memOf mode l).size ≥ 2) : (memOf mode l).pt 0 ≠ (memOf mode l).pt 1 := by
  have hb := memOf_length mode l
  have hr := memOf_readable mode l
  rw [pt_of_lt (by omega), pt_of_lt (by omega)]
  cases l with
  | nil => simp [memOf, removeDegenerateSegments] at h
  | cons p l =>
    have hk : 0 < (keepDistinct p l).length := by
      simp only [memOf, removeDegenerateSegments, List.length_cons] at h; omega
    have h0 : (memOf mode (p :: l)).buf[0]'(by omega) = p := by
      simp only [memOf, removeDegenerateSegments, List.cons_append, List.getElem_cons_zero]
    have h1 : (memOf mode (p :: l)).buf[1]'(by omega) = (keepDistinct p l)[0] := by
      simp only [memOf, removeDegenerateSegments, List.cons_append, List.getElem_cons_succ, List.getElem_append_left hk]
    rw [h0, h1]
    intro heq
    have := keepDistinct_head p l (keepDistinct p l)[0] (List.getElem?_eq_getElem hk)
    rw [← heq, distanceSquare_eq, eps_real] at this
    norm_num at this

/-! ### The whole construction -/

theorem area_zero_line {P : Set P2} {a b : P2} (hab : a ≠ b) (h : ∀ x ∈ P, cross a b x = 0) :
    volume (convexHull ℝ P) = 0 := by
  apply measure_mono_null _ (volume_line hab)
  intro x hx
  have h1 : 0 ≤ cross a b x := convexHull_min (fun y hy => (h y hy).ge) (convex_halfplane a b) hx
  have h2 : 0 ≤ cross b a x := convexHull_min (fun y hy => by
    show 0 ≤ cross b a y
    rw [cross_swap, h y hy, neg_zero]) (convex_halfplane b a) hx
  rw [cross_swap] at h2
  show cross a b x = 0
  linarith

theorem cross_segment {a b x : P2} (h : x ∈ segment ℝ a b) : cross a b x = 0 := by
  obtain ⟨s, t, _, _, hst, rfl⟩ := h
  rw [cross_combo _ _ _ _ _ _ hst, cross_self_left, cross_self_right]
  ring

theorem collinear_of_line {P : Set P2} {a b : P2} (hab : a ≠ b) (h : ∀ x ∈ P, cross a b x = 0) : Collinear2 P := by
  intro p hp q hq r hr
  obtain ⟨s, rfl⟩ := on_line hab (h p hp)
  obtain ⟨t, rfl⟩ := on_line hab (h q hq)
  obtain ⟨u, rfl⟩ := on_line hab (h r hr)
  simp only [area2, Prod.fst_add, Prod.snd_add, Prod.smul_fst, Prod.smul_snd, Prod.fst_sub, Prod.snd_sub, smul_eq_mul]
  ring

theorem addLoop_empty (m : Mem ℝ) (k n : Nat) :
    (forFrom k n ({ edges := [], tris := [] } : Mesh) fun ip t => m.addPoint ip t) = .ok { edges := [], tris := [] } := by
  induction n generalizing k with
  | zero => rfl
  | succ n ih => simp only [forFrom, addPoint_empty, ih]

theorem addLoop_inv {m : Mem ℝ} (hm : m.readable ≤ m.buf.length) (hclean : TolClean (m.first m.readable))
    (hsup : ∀ v ∈ m.first m.readable, Supported (m.first m.readable) v) (n : Nat) : ∀ k t, k + n = m.readable →
    MeshInv m k t → ∃ t', (forFrom k n t fun ip t => m.addPoint ip t) = .ok t' ∧ MeshInv m m.readable t' := by
  induction n with
  | zero =>
    intro k t hk inv
    refine ⟨t, rfl, ?_⟩
    rw [← hk]; exact inv
  | succ n ih =>
    intro k t hk inv
    obtain ⟨t1, h1, inv1⟩ := addPoint_inv hm (by omega) hclean hsup inv
    obtain ⟨t2, h2, inv2⟩ := ih (k + 1) t1 (by omega) inv1
    exact ⟨t2, by simp only [forFrom, h1, h2], inv2⟩

theorem sumLoop_ok {m : Mem ℝ} (hm : m.readable ≤ m.buf.length) (l : List (Nat × Nat × Nat))
    (h : ∀ a ∈ l, a.1 < m.readable ∧ a.2.1 < m.readable ∧ a.2.2 < m.readable) (s : ℝ) :
    (l.foldlM (fun s t => do
      let a ← m.area t.1 t.2.1 t.2.2
      return s + a) s : Cxx ℝ) = .ok (s + m.triSum l) := by
  induction l generalizing s with
  | nil => simp [Mem.triSum, List.foldlM, pure, Except.pure]
  | cons t l ih =>
    have ht := h t (by simp)
    rw [List.foldlM_cons]
    simp only [Mem.area_ok hm ht.1 ht.2.1 ht.2.2, bind, Except.bind, pure, Except.pure]
    have := ih (fun a ha => h a (by simp [ha])) (s + cross (m.pt t.1) (m.pt t.2.1) (m.pt t.2.2))
    simp only [bind, Except.bind, pure, Except.pure] at this
    rw [this]
    simp only [Mem.triSum, List.map_cons, List.sum_cons, add_assoc]

theorem hullArea_empty (m : Mem ℝ) : getConvexHullArea (m, ({ edges := [], tris := [] } : Mesh)) = .ok 0 := by
  simp [getConvexHullArea, List.foldlM, pure, Except.pure, bind, Except.bind]

/-- Every outcome of the construction when the whole buffer can be read. -/
theorem build_run (mode : Mode) (l : List P2) (hr : (memOf mode l).readable = l.length) (hclean : TolClean (ptsOf l))
    (hcp : ConvexPosition (ptsOf l)) :
    (build mode l = .ok (memOf mode l, { edges := [], tris := [] }) ∧ volume (convexHull ℝ (ptsOf l)) = 0) ∨
    (∃ t, build mode l = .ok (memOf mode l, t) ∧ MeshInv (memOf mode l) l.length t ∧ (memOf mode l).first l.length = ptsOf l) ∨
    (build mode l = .error .outOfBounds ∧ Collinear2 (ptsOf l) ∧ (memOf mode l).size = l.length ∧ 3 ≤ l.length) := by
  set m := memOf mode l with hmdef
  have hlen := memOf_length mode l
  have hsz := (memOf_readable mode l).1
  rw [← hmdef] at hlen hsz
  have hm : m.readable ≤ m.buf.length := by omega
  have hP : m.first m.readable = ptsOf l := memOf_first mode hclean m.readable hsz (by omega)
  have hPs : m.first m.size = ptsOf l := memOf_first_size mode hclean
  have hclean' : TolClean (m.first m.readable) := by rw [hP]; exact hclean
  rcases makeFirstTriangle_ok hm hsz hclean' (memOf_ne mode) with
    ⟨h3, hft⟩ | ⟨k, t, hft, hk, h3, inv, p, hp, q, hq, r, hr', hne⟩ | ⟨k, hft, hk, h3, i0, i1, hl⟩ | ⟨hft, hrs, i0, i1, hl⟩
  · left
    refine ⟨?_, ?_⟩
    · simp only [build, ← hmdef, hft, bind, Except.bind, addLoop_empty, pure, Except.pure]
    · rw [← hPs]
      have : ∃ a b : P2, a ≠ b ∧ ∀ x ∈ m.first m.size, cross a b x = 0 := by
        by_cases h2 : m.size ≥ 2
        · refine ⟨m.pt 0, m.pt 1, memOf_ne mode h2, ?_⟩
          rintro x ⟨i, hi, rfl⟩
          rcases (show i = 0 ∨ i = 1 by omega) with rfl | rfl
          · exact cross_self_left _ _
          · exact cross_self_right _ _
        · refine ⟨m.pt 0, m.pt 0 + (1, 0), ?_, ?_⟩
          · intro h0
            have := (Prod.ext_iff.mp h0).1
            simp at this
          · rintro x ⟨i, hi, rfl⟩
            rcases (show i = 0 by omega) with rfl
            exact cross_self_left _ _
      obtain ⟨a, b, hab, hall⟩ := this
      exact area_zero_line hab hall
  · right; left
    have hint := interior_of_cross hp hq hr' hne
    have hsup : ∀ v ∈ m.first m.readable, Supported (m.first m.readable) v := by
      intro v hv
      apply supported_of_not_interior hint
      rw [hP] at hv ⊢
      exact hcp v hv
    obtain ⟨t', ht', inv'⟩ := addLoop_inv hm hclean' hsup (l.length - k) k t (by omega) inv
    rw [hr] at inv' hP
    refine ⟨t', ?_, inv', hP⟩
    simp only [build, ← hmdef, hft, bind, Except.bind, ht', pure, Except.pure]
  · left
    refine ⟨?_, ?_⟩
    · simp only [build, ← hmdef, hft, bind, Except.bind, addLoop_empty, pure, Except.pure]
    · rw [← hPs]
      apply area_zero_line hl.ne
      rintro x ⟨i, hi, rfl⟩
      exact cross_segment (hl.seg i hi)
  · right; right
    refine ⟨?_, ?_, by omega, ?_⟩
    · simp only [build, ← hmdef, hft, bind, Except.bind]
    · rw [← hP]
      apply collinear_of_line hl.ne
      rintro x ⟨i, hi, rfl⟩
      exact cross_segment (hl.seg i hi)
    · by_contra hcon
      have h3 : m.size < 3 := by omega
      simp only [Mem.makeFirstTriangle, if_pos h3, pure, Except.pure] at hft
      cases hft

theorem hullArea_run (mode : Mode) (l : List P2) (hr : (memOf mode l).readable = l.length) (hclean : TolClean (ptsOf l))
    (hcp : ConvexPosition (ptsOf l)) :
    (∃ a, hullArea mode l = .ok a ∧ 0 ≤ a ∧ volume (convexHull ℝ (ptsOf l)) = ENNReal.ofReal a) ∨
    (hullArea mode l = .error .outOfBounds ∧ Collinear2 (ptsOf l) ∧ (memOf mode l).size = l.length ∧ 3 ≤ l.length) := by
  have hm : (memOf mode l).readable ≤ (memOf mode l).buf.length := by rw [hr, memOf_length]
  rcases build_run mode l hr hclean hcp with ⟨e, h0⟩ | ⟨t, e, inv, hP⟩ | ⟨e, h⟩
  · left
    refine ⟨0, ?_, le_refl _, by rw [h0, ENNReal.ofReal_zero]⟩
    simp only [hullArea, e, bind, Except.bind, hullArea_empty]
  · left
    refine ⟨(memOf mode l).triSum t.tris * (1 / (1 + 1)), ?_, ?_, ?_⟩
    · have hs := sumLoop_ok hm t.tris (by rw [hr]; exact inv.tidx) 0
      simp only [bind, Except.bind, pure, Except.pure] at hs
      simp only [hullArea, e, bind, Except.bind, pure, Except.pure, getConvexHullArea, hs, zero_add]
    · have := inv.nonneg
      positivity
    · rw [← hP, inv.area]
      congr 1
      ring
  · right
    exact ⟨by simp only [hullArea, e, bind, Except.bind], h⟩

end Sg.Triangulate
