import Verif.Spec.Quad
import Verif.Proof.TriangulateRun
import Mathlib.Analysis.Convex.KreinMilman
/-
Convex quadrilaterals: half-planes, triangles, boundary; the corners of the intersection of two of them.
-/
namespace Sg.Plane
open Sg Sg.Triangulate Sg.Spec MeasureTheory

/-! ### One quadrilateral -/

/-- Going around the other way. -/
def rev (q : Fin 4 → P2) : Fin 4 → P2 := fun i => q (-i)

theorem range_rev (q : Fin 4 → P2) : Set.range (rev q) = Set.range q := by
  ext x
  constructor
  · rintro ⟨i, rfl⟩; exact ⟨-i, rfl⟩
  · rintro ⟨i, rfl⟩; exact ⟨-i, by simp [rev]⟩

theorem region_rev (q : Fin 4 → P2) : quadRegion (rev q) = quadRegion q := by
  unfold quadRegion; rw [range_rev]

/-- Counterclockwise. -/
def Ccw (q : Fin 4 → P2) : Prop :=
  (∀ i, 0 ≤ cross (q i) (q (i + 1)) (q (i + 2))) ∧ 0 < cross (q 1) (q 2) (q 3) + cross (q 3) (q 0) (q 1)

theorem fin4 {P : Fin 4 → Prop} : (∀ i, P i) ↔ P 0 ∧ P 1 ∧ P 2 ∧ P 3 := by
  constructor
  · intro h; exact ⟨h 0, h 1, h 2, h 3⟩
  · rintro ⟨h0, h1, h2, h3⟩ i; fin_cases i <;> assumption

theorem turn_sum (q : Fin 4 → P2) (i : Fin 4) :
    cross (q i) (q (i + 1)) (q (i + 2)) + cross (q (i + 2)) (q (i + 3)) (q i) =
      cross (q 1) (q 2) (q 3) + cross (q 3) (q 0) (q 1) := by
  have e : ∀ i : Fin 4, i = 0 ∨ i = 1 ∨ i = 2 ∨ i = 3 := by decide
  rcases e i with rfl | rfl | rfl | rfl
  · show cross (q 0) (q 1) (q 2) + cross (q 2) (q 3) (q 0) = _
    simp only [cross]; ring
  · rfl
  · show cross (q 2) (q 3) (q 0) + cross (q 0) (q 1) (q 2) = _
    simp only [cross]; ring
  · show cross (q 3) (q 0) (q 1) + cross (q 1) (q 2) (q 3) = _
    ring

theorem turn_sum_pos {q : Fin 4 → P2} (h : ∀ i, 0 ≤ cross (q i) (q (i + 1)) (q (i + 2)))
    (hne : ∃ i, cross (q i) (q (i + 1)) (q (i + 2)) ≠ 0) : 0 < cross (q 1) (q 2) (q 3) + cross (q 3) (q 0) (q 1) := by
  obtain ⟨i, hi⟩ := hne
  rw [← turn_sum q i]
  have h1 := lt_of_le_of_ne (h i) hi.symm
  have h2 := h (i + 2)
  have e1 : i + 2 + 1 = i + 3 := by rw [add_assoc]; rfl
  have e2 : i + 2 + 2 = i := by rw [add_assoc]; show i + 0 = i; simp
  rw [e1, e2] at h2
  linarith

theorem ccw_or_rev {q : Fin 4 → P2} (h : ConvexQuad q) : Ccw q ∨ Ccw (rev q) := by
  obtain ⟨h, j, hj⟩ := h
  rcases h with h | h
  · left
    have h' : ∀ i, 0 ≤ cross (q i) (q (i + 1)) (q (i + 2)) := fun i => by rw [cross_area2]; exact h i
    exact ⟨h', turn_sum_pos h' ⟨j, by rw [cross_area2]; exact hj⟩⟩
  · right
    have e1 : ∀ i : Fin 4, -i - 2 + 1 = -(i + 1) := by decide
    have e2 : ∀ i : Fin 4, -i - 2 + 2 = -i := by decide
    have e3 : ∀ i : Fin 4, -i - 2 = -(i + 2) := by decide
    have e : ∀ i, cross (rev q i) (rev q (i + 1)) (rev q (i + 2)) =
        - area2 (q (-i - 2)) (q (-i - 2 + 1)) (q (-i - 2 + 2)) := by
      intro i
      rw [← cross_area2, e1, e2, e3]
      simp only [rev, cross]; ring
    have h' : ∀ i, 0 ≤ cross (rev q i) (rev q (i + 1)) (rev q (i + 2)) := by
      intro i
      rw [e]; linarith [h (-i - 2)]
    refine ⟨h', turn_sum_pos h' ⟨-j - 2, ?_⟩⟩
    rw [e]
    have e4 : ∀ j : Fin 4, -(-j - 2) - 2 = j := by decide
    rw [e4]
    exact neg_ne_zero.mpr hj

theorem ccw_ineqs {q : Fin 4 → P2} (h : Ccw q) :
    0 ≤ cross (q 0) (q 1) (q 2) ∧ 0 ≤ cross (q 1) (q 2) (q 3) ∧ 0 ≤ cross (q 2) (q 3) (q 0) ∧ 0 ≤ cross (q 3) (q 0) (q 1) :=
  ⟨h.1 0, h.1 1, h.1 2, h.1 3⟩

/-- Half-planes of the edges. -/
theorem region_left {q : Fin 4 → P2} (h : Ccw q) {x : P2} (hx : x ∈ quadRegion q) (i : Fin 4) :
    0 ≤ cross (q i) (q (i + 1)) x := by
  refine convexHull_min (t := {x | 0 ≤ cross (q i) (q (i + 1)) x}) ?_ (convex_halfplane _ _) hx
  rintro _ ⟨j, rfl⟩
  show 0 ≤ cross (q i) (q (i + 1)) (q j)
  have h1 := h.1 i
  have h2 := h.1 (i + 3)
  have e1 : i + 3 + 1 = i := by rw [add_assoc]; show i + 0 = i; simp
  have e2 : i + 3 + 2 = i + 1 := by rw [add_assoc]; rfl
  rw [e1, e2] at h2
  have e3 : cross (q (i + 3)) (q i) (q (i + 1)) = cross (q i) (q (i + 1)) (q (i + 3)) := by
    simp only [cross]; ring
  rw [e3] at h2
  have hj : j = i ∨ j = i + 1 ∨ j = i + 2 ∨ j = i + 3 :=
    (by decide : ∀ i j : Fin 4, j = i ∨ j = i + 1 ∨ j = i + 2 ∨ j = i + 3) i j
  rcases hj with rfl | rfl | rfl | rfl
  · rw [cross_self_left]
  · rw [cross_self_right]
  · exact h1
  · exact h2

theorem mem_region (q : Fin 4 → P2) (i : Fin 4) : q i ∈ quadRegion q := subset_convexHull ℝ _ ⟨i, rfl⟩

theorem tri_sub_region (q : Fin 4 → P2) (i j k : Fin 4) : tri (q i) (q j) (q k) ⊆ quadRegion q := by
  apply convexHull_mono
  rintro x (rfl | rfl | rfl) <;> exact ⟨_, rfl⟩

theorem tri_comm (a b c : P2) : tri a b c = tri a c b := by
  unfold tri
  congr 1
  ext x
  simp only [Set.mem_insert_iff, Set.mem_singleton_iff]
  tauto

theorem region_tris_ccw {q : Fin 4 → P2} (h : Ccw q) {x : P2} (hx : ∀ i, 0 ≤ cross (q i) (q (i + 1)) x) :
    (cross (q 0) (q 1) (q 3) ≠ 0 ∧ x ∈ tri (q 0) (q 1) (q 3)) ∨ (cross (q 2) (q 3) (q 1) ≠ 0 ∧ x ∈ tri (q 2) (q 3) (q 1)) := by
  obtain ⟨h0, h1, h2, h3⟩ := ccw_ineqs h
  have hs := h.2
  have x0 := hx 0
  have x1 := hx 1
  have x2 := hx 2
  have x3 := hx 3
  have e1 : (1 : Fin 4) + 1 = 2 := rfl
  have e2 : (2 : Fin 4) + 1 = 3 := rfl
  have e3 : (3 : Fin 4) + 1 = 0 := rfl
  rw [zero_add] at x0
  rw [e1] at x1
  rw [e2] at x2
  rw [e3] at x3
  have c1 : cross (q 0) (q 1) (q 3) = cross (q 3) (q 0) (q 1) := by simp only [cross]; ring
  have c2 : cross (q 2) (q 3) (q 1) = cross (q 1) (q 2) (q 3) := by simp only [cross]; ring
  have s1 : cross (q 3) (q 0) x + cross (q 0) (q 1) x + cross (q 1) (q 3) x = cross (q 3) (q 0) (q 1) := by
    simp only [cross]; ring
  have s2 : cross (q 1) (q 2) x + cross (q 2) (q 3) x - cross (q 1) (q 3) x = cross (q 1) (q 2) (q 3) := by
    simp only [cross]; ring
  have right : 0 < cross (q 1) (q 2) (q 3) → cross (q 1) (q 3) x ≤ 0 →
      cross (q 2) (q 3) (q 1) ≠ 0 ∧ x ∈ tri (q 2) (q 3) (q 1) := by
    intro hp hd
    rw [c2]
    refine ⟨hp.ne', ?_⟩
    rw [mem_tri_iff (by rw [c2]; exact hp)]
    refine ⟨x2, ?_, x1⟩
    rw [cross_swap]
    linarith
  by_cases hd : 0 ≤ cross (q 1) (q 3) x
  · rcases h3.lt_or_eq with hp | hz
    · left
      rw [c1]
      refine ⟨hp.ne', ?_⟩
      rw [mem_tri_iff (by rw [c1]; exact hp)]
      exact ⟨x0, hd, x3⟩
    · exact Or.inr (right (by linarith) (by linarith))
  · exact Or.inr (right (by linarith) (by linarith))

/-- A convex quadrilateral is made of those of the two triangles the code uses that are not degenerate. -/
theorem region_tris {q : Fin 4 → P2} (h : ConvexQuad q) (x : P2) :
    x ∈ quadRegion q ↔ (cross (q 0) (q 1) (q 3) ≠ 0 ∧ x ∈ tri (q 0) (q 1) (q 3)) ∨
      (cross (q 2) (q 3) (q 1) ≠ 0 ∧ x ∈ tri (q 2) (q 3) (q 1)) := by
  constructor
  · intro hx
    rcases ccw_or_rev h with h | h
    · exact region_tris_ccw h (region_left h hx)
    · rw [← region_rev] at hx
      have := region_tris_ccw h (region_left h hx)
      have r0 : rev q 0 = q 0 := rfl
      have r1 : rev q 1 = q 3 := rfl
      have r2 : rev q 2 = q 2 := rfl
      have r3 : rev q 3 = q 1 := rfl
      have s1 : cross (q 0) (q 3) (q 1) = - cross (q 0) (q 1) (q 3) := by simp only [cross]; ring
      have s2 : cross (q 2) (q 1) (q 3) = - cross (q 2) (q 3) (q 1) := by simp only [cross]; ring
      rw [r0, r1, r2, r3, tri_comm, tri_comm (q 2), s1, s2, neg_ne_zero, neg_ne_zero] at this
      exact this
  · rintro (⟨-, hx⟩ | ⟨-, hx⟩)
    · exact tri_sub_region _ _ _ _ hx
    · exact tri_sub_region _ _ _ _ hx

/-- One of the triangles is not degenerate. -/
theorem some_tri {q : Fin 4 → P2} (h : ConvexQuad q) : cross (q 0) (q 1) (q 3) ≠ 0 ∨ cross (q 2) (q 3) (q 1) ≠ 0 := by
  rcases (region_tris h (q 0)).mp (mem_region q 0) with h | h
  · exact Or.inl h.1
  · exact Or.inr h.1

theorem isOpen_pos (a b : P2) : IsOpen {x : P2 | 0 < cross a b x} := by
  apply isOpen_lt continuous_const
  unfold cross
  fun_prop

/-- A point of the quadrilateral on the line of an edge is on the edge or on one in line with it. -/
theorem on_edge_ccw {q : Fin 4 → P2} (h : Ccw q) {x : P2} (hx : x ∈ quadRegion q) {i : Fin 4} (hne : q i ≠ q (i + 1))
    (hz : cross (q i) (q (i + 1)) x = 0) :
    ∃ (j : Fin 4) (c : ℝ), x ∈ segment ℝ (q j) (q (j + 1)) ∧ q (i + 1) - q i = c • (q (j + 1) - q j) := by
  have h1 := h.1 i
  have h2 := h.1 (i + 3)
  have h3 := h.1 (i + 1)
  have h4 := h.1 (i + 2)
  have hs := turn_sum q i
  have hT := h.2
  rw [← hs] at hT
  have e1 : i + 3 + 1 = i := by rw [add_assoc]; show i + 0 = i; simp
  have e2 : i + 3 + 2 = i + 1 := by rw [add_assoc]; rfl
  have e3 : i + 1 + 1 = i + 2 := by rw [add_assoc]; rfl
  have e4 : i + 1 + 2 = i + 3 := by rw [add_assoc]; rfl
  have e5 : i + 2 + 1 = i + 3 := by rw [add_assoc]; rfl
  have e6 : i + 2 + 2 = i := by rw [add_assoc]; show i + 0 = i; simp
  rw [e1, e2] at h2
  rw [e3, e4] at h3
  rw [e5, e6] at h4
  have x1 := region_left h hx (i + 1)
  have x2 := region_left h hx (i + 2)
  have x3 := region_left h hx (i + 3)
  rw [e3] at x1
  rw [e5] at x2
  rw [e1] at x3
  obtain ⟨t, rfl⟩ := on_line hne hz
  have hon : 0 ≤ t → t ≤ 1 → q i + t • (q (i + 1) - q i) ∈ segment ℝ (q i) (q (i + 1)) := fun h0 h1 =>
    ⟨1 - t, t, by linarith, h0, by ring, by ext <;> simp <;> ring⟩
  have ea : cross (q (i + 3)) (q i) (q i + t • (q (i + 1) - q i)) = t * cross (q (i + 3)) (q i) (q (i + 1)) := by
    simp only [cross, Prod.fst_add, Prod.snd_add, Prod.smul_fst, Prod.smul_snd, Prod.fst_sub, Prod.snd_sub, smul_eq_mul]
    ring
  have eb : cross (q (i + 1)) (q (i + 2)) (q i + t • (q (i + 1) - q i)) =
      (1 - t) * cross (q i) (q (i + 1)) (q (i + 2)) := by
    simp only [cross, Prod.fst_add, Prod.snd_add, Prod.smul_fst, Prod.smul_snd, Prod.fst_sub, Prod.snd_sub, smul_eq_mul]
    ring
  rw [ea] at x3
  rw [eb] at x1
  rcases h1.lt_or_eq with p1 | z1
  · have ht1 : 0 ≤ 1 - t := nonneg_of_mul_nonneg_left x1 p1
    rcases h2.lt_or_eq with p2 | z2
    · exact ⟨i, 1, hon (nonneg_of_mul_nonneg_left x3 p2) (by linarith), by rw [one_smul]⟩
    · -- the previous node is on the line
      have hz3 : cross (q i) (q (i + 1)) (q (i + 3)) = 0 := by
        have : cross (q i) (q (i + 1)) (q (i + 3)) = cross (q (i + 3)) (q i) (q (i + 1)) := by simp only [cross]; ring
        rw [this]; exact z2.symm
      obtain ⟨s, hs3⟩ := on_line hne hz3
      have f4 : cross (q (i + 2)) (q (i + 3)) (q i) = -s * cross (q i) (q (i + 1)) (q (i + 2)) := by
        rw [hs3]
        simp only [cross, Prod.fst_add, Prod.snd_add, Prod.smul_fst, Prod.smul_snd, Prod.fst_sub, Prod.snd_sub, smul_eq_mul]
        ring
      have fx : cross (q (i + 2)) (q (i + 3)) (q i + t • (q (i + 1) - q i)) = (t - s) * cross (q i) (q (i + 1)) (q (i + 2)) := by
        rw [hs3]
        simp only [cross, Prod.fst_add, Prod.snd_add, Prod.smul_fst, Prod.smul_snd, Prod.fst_sub, Prod.snd_sub, smul_eq_mul]
        ring
      rw [f4] at h4
      rw [fx] at x2
      have hs0 : 0 ≤ -s := nonneg_of_mul_nonneg_left h4 p1
      have hts : 0 ≤ t - s := nonneg_of_mul_nonneg_left x2 p1
      rcases le_or_gt 0 t with h0 | h0
      · exact ⟨i, 1, hon h0 (by linarith), by rw [one_smul]⟩
      · have hsn : s < 0 := by linarith
        refine ⟨i + 3, -1 / s, ?_, ?_⟩
        · rw [e1, hs3]
          refine ⟨t / s, 1 - t / s, div_nonneg_of_nonpos h0.le hsn.le, ?_, by ring, ?_⟩
          · rw [sub_nonneg, div_le_one_of_neg hsn]; linarith
          · have : t / s * s = t := div_mul_cancel₀ t hsn.ne
            generalize t / s = r at this
            rw [← this]
            ext <;> simp <;> ring
        · rw [e1, hs3]
          have : -1 / s * s = -1 := div_mul_cancel₀ _ hsn.ne
          generalize -1 / s = r at this
          ext
          · simp only [Prod.fst_sub, Prod.smul_fst, Prod.fst_add, smul_eq_mul]
            linear_combination (((q (i + 1)).1 - (q i).1)) * this
          · simp only [Prod.snd_sub, Prod.smul_snd, Prod.snd_add, smul_eq_mul]
            linear_combination (((q (i + 1)).2 - (q i).2)) * this
  · -- the next node is on the line
    obtain ⟨s, hs2⟩ := on_line hne z1.symm
    have f3 : cross (q (i + 1)) (q (i + 2)) (q (i + 3)) = (s - 1) * cross (q (i + 3)) (q i) (q (i + 1)) := by
      rw [hs2]
      simp only [cross, Prod.fst_add, Prod.snd_add, Prod.smul_fst, Prod.smul_snd, Prod.fst_sub, Prod.snd_sub, smul_eq_mul]
      ring
    have f4 : cross (q (i + 2)) (q (i + 3)) (q i) = s * cross (q (i + 3)) (q i) (q (i + 1)) := by
      rw [hs2]
      simp only [cross, Prod.fst_add, Prod.snd_add, Prod.smul_fst, Prod.smul_snd, Prod.fst_sub, Prod.snd_sub, smul_eq_mul]
      ring
    have fx : cross (q (i + 2)) (q (i + 3)) (q i + t • (q (i + 1) - q i)) = (s - t) * cross (q (i + 3)) (q i) (q (i + 1)) := by
      rw [hs2]
      simp only [cross, Prod.fst_add, Prod.snd_add, Prod.smul_fst, Prod.smul_snd, Prod.fst_sub, Prod.snd_sub, smul_eq_mul]
      ring
    have p2 : 0 < cross (q (i + 3)) (q i) (q (i + 1)) := by
      refine lt_of_le_of_ne h2 fun hz2 => ?_
      rw [← hz2, mul_zero] at f4
      linarith
    rw [f3] at h3
    rw [fx] at x2
    have hs1 : 0 ≤ s - 1 := nonneg_of_mul_nonneg_left h3 p2
    have hst : 0 ≤ s - t := nonneg_of_mul_nonneg_left x2 p2
    have ht0 : 0 ≤ t := nonneg_of_mul_nonneg_left x3 p2
    rcases le_or_gt t 1 with h0 | h0
    · exact ⟨i, 1, hon ht0 h0, by rw [one_smul]⟩
    · have hsp : 0 < s - 1 := by linarith
      refine ⟨i + 1, 1 / (s - 1), ?_, ?_⟩
      · rw [e3, hs2]
        refine ⟨1 - (t - 1) / (s - 1), (t - 1) / (s - 1), ?_, div_nonneg (by linarith) hsp.le, by ring, ?_⟩
        · rw [sub_nonneg, div_le_one hsp]; linarith
        · have : (t - 1) / (s - 1) * (s - 1) = t - 1 := div_mul_cancel₀ _ hsp.ne'
          generalize (t - 1) / (s - 1) = r at this
          obtain rfl : t = r * (s - 1) + 1 := by linarith
          ext <;> simp <;> ring
      · rw [e3, hs2]
        have : 1 / (s - 1) * (s - 1) = 1 := div_mul_cancel₀ _ hsp.ne'
        generalize 1 / (s - 1) = r at this
        ext
        · simp only [Prod.fst_sub, Prod.smul_fst, Prod.fst_add, smul_eq_mul]
          linear_combination -(((q (i + 1)).1 - (q i).1)) * this
        · simp only [Prod.snd_sub, Prod.smul_snd, Prod.snd_add, smul_eq_mul]
          linear_combination -(((q (i + 1)).2 - (q i).2)) * this

theorem boundary_ccw {q : Fin 4 → P2} (h : Ccw q) {x : P2} (hx : x ∈ quadRegion q) :
    x ∈ interior (quadRegion q) ∨ ∃ i, x ∈ segment ℝ (q i) (q (i + 1)) := by
  by_cases hp : ∀ i, q i = q (i + 1) ∨ 0 < cross (q i) (q (i + 1)) x
  · left
    have hsub : (⋂ i : Fin 4, {x : P2 | q i = q (i + 1) ∨ 0 < cross (q i) (q (i + 1)) x}) ⊆ quadRegion q := by
      intro y hy
      rw [Set.mem_iInter] at hy
      have hy' : ∀ i, 0 ≤ cross (q i) (q (i + 1)) y := by
        intro i
        rcases hy i with h | h
        · rw [← h, cross_aa]
        · exact h.le
      rcases region_tris_ccw h hy' with ⟨-, hy⟩ | ⟨-, hy⟩
      · exact tri_sub_region _ _ _ _ hy
      · exact tri_sub_region _ _ _ _ hy
    refine interior_maximal hsub (isOpen_iInter_of_finite fun i => ?_) (Set.mem_iInter.mpr hp)
    by_cases he : q i = q (i + 1)
    · simp [he]
    · simpa [he] using isOpen_pos (q i) (q (i + 1))
  · right
    push Not at hp
    obtain ⟨i, hne, hi⟩ := hp
    obtain ⟨j, -, hj, -⟩ := on_edge_ccw h hx hne (le_antisymm hi (region_left h hx i))
    exact ⟨j, hj⟩

/-- A point of a convex quadrilateral is in the interior or on an edge. -/
theorem boundary {q : Fin 4 → P2} (h : ConvexQuad q) {x : P2} (hx : x ∈ quadRegion q) :
    x ∈ interior (quadRegion q) ∨ ∃ i, x ∈ segment ℝ (q i) (q (i + 1)) := by
  rcases ccw_or_rev h with h | h
  · exact boundary_ccw h hx
  · rw [← region_rev] at hx ⊢
    rcases boundary_ccw h hx with h | ⟨i, hi⟩
    · exact Or.inl h
    · right
      refine ⟨-(i + 1), ?_⟩
      have e : -(i + 1) + 1 = -i := (by decide : ∀ i : Fin 4, -(i + 1) + 1 = -i) i
      rw [e, segment_symm]
      exact hi

/-- A set in a closed half-plane has no interior point on its line. -/
theorem not_interior_of_zero {S : Set P2} {a b x : P2} (hab : a ≠ b) (hS : ∀ y ∈ S, 0 ≤ cross a b y)
    (hx : cross a b x = 0) : x ∉ interior S := by
  intro hint
  have hcont : Filter.Tendsto (fun e : ℝ => x + e • ((b.2 - a.2, a.1 - b.1) : P2)) (nhds 0) (nhds x) := by
    have : Continuous (fun e : ℝ => x + e • ((b.2 - a.2, a.1 - b.1) : P2)) := by fun_prop
    have h0 := this.tendsto 0
    simpa using h0
  have hev := hcont.eventually (mem_interior_iff_mem_nhds.mp hint)
  have hpos : ∀ᶠ e in nhdsWithin (0 : ℝ) (Set.Ioi 0), (0 : ℝ) < e := self_mem_nhdsWithin
  obtain ⟨e, he, he0⟩ := ((hev.filter_mono nhdsWithin_le_nhds).and hpos).exists
  have h1 := hS _ he
  have h2 : cross a b (x + e • ((b.2 - a.2, a.1 - b.1) : P2)) = cross a b x - e * ((b.1 - a.1) ^ 2 + (b.2 - a.2) ^ 2) := by
    simp only [cross, Prod.fst_add, Prod.snd_add, Prod.smul_fst, Prod.smul_snd, smul_eq_mul]
    ring
  rw [h2, hx] at h1
  have h3 : 0 < (b.1 - a.1) ^ 2 + (b.2 - a.2) ^ 2 := by
    by_contra hcon
    apply hab
    have e1 : (b.1 - a.1) ^ 2 = 0 := by nlinarith [sq_nonneg (b.1 - a.1), sq_nonneg (b.2 - a.2)]
    have e2 : (b.2 - a.2) ^ 2 = 0 := by nlinarith [sq_nonneg (b.1 - a.1), sq_nonneg (b.2 - a.2)]
    have e1 := pow_eq_zero_iff (two_ne_zero) |>.mp e1
    have e2 := pow_eq_zero_iff (two_ne_zero) |>.mp e2
    ext <;> linarith
  nlinarith

theorem edge_not_interior_ccw {q : Fin 4 → P2} (h : Ccw q) {x : P2} {i : Fin 4} (hx : x ∈ segment ℝ (q i) (q (i + 1))) :
    x ∉ interior (quadRegion q) := by
  by_cases hne : q i = q (i + 1)
  · rw [← hne, segment_same, Set.mem_singleton_iff] at hx
    subst hx
    have e1 : i + 3 + 1 = i := by rw [add_assoc]; show i + 0 = i; simp
    have hne' : q (i + 3) ≠ q (i + 3 + 1) := by
      rw [e1]
      intro h0
      have hT := h.2
      rw [← turn_sum q i, ← hne, h0] at hT
      simp only [cross] at hT
      linarith
    refine not_interior_of_zero hne' (fun y hy => region_left h hy (i + 3)) ?_
    rw [e1]
    exact cross_self_right _ _
  · exact not_interior_of_zero hne (fun y hy => region_left h hy i) (cross_segment hx)

/-- Points of edges are not in the interior. -/
theorem edge_not_interior {q : Fin 4 → P2} (h : ConvexQuad q) {x : P2} {i : Fin 4}
    (hx : x ∈ segment ℝ (q i) (q (i + 1))) : x ∉ interior (quadRegion q) := by
  rcases ccw_or_rev h with h | h
  · exact edge_not_interior_ccw h hx
  · rw [← region_rev]
    refine edge_not_interior_ccw h (i := -(i + 1)) ?_
    have e : -(-(i + 1) + 1) = i := (by decide : ∀ i : Fin 4, -(-(i + 1) + 1) = i) i
    simp only [rev, e, neg_neg]
    rw [segment_symm]; exact hx

theorem segment_region {q : Fin 4 → P2} (i : Fin 4) : segment ℝ (q i) (q (i + 1)) ⊆ quadRegion q :=
  (convex_convexHull ℝ _).segment_subset (mem_region q i) (mem_region q (i + 1))

theorem isCompact_region (q : Fin 4 → P2) : IsCompact (quadRegion q) :=
  Set.Finite.isCompact_convexHull (𝕜 := ℝ) (Set.finite_range q)

/-! ### Two quadrilaterals -/

theorem eventually_interior {R : Set P2} {x : P2} (hx : x ∈ interior R) (d : P2) :
    ∀ᶠ e in nhds (0 : ℝ), x + e • d ∈ R := by
  have hcont : Filter.Tendsto (fun e : ℝ => x + e • d) (nhds 0) (nhds x) := by
    have : Continuous (fun e : ℝ => x + e • d) := by fun_prop
    have h0 := this.tendsto 0
    simpa using h0
  exact hcont.eventually (mem_interior_iff_mem_nhds.mp hx)

theorem eventually_segment {a b x : P2} (hx : x ∈ openSegment ℝ a b) : ∀ᶠ e in nhds (0 : ℝ), x + e • (b - a) ∈ segment ℝ a b := by
  obtain ⟨s, t, hs, ht, hst, rfl⟩ := hx
  have h1 : ∀ᶠ e in nhds (0 : ℝ), e < s := eventually_lt_nhds hs
  have h2 : ∀ᶠ e in nhds (0 : ℝ), -t < e := eventually_gt_nhds (by linarith)
  filter_upwards [h1, h2] with e h1 h2
  exact ⟨s - e, t + e, by linarith, by linarith, by linarith, by ext <;> simp <;> ring⟩

theorem not_extreme {A : Set P2} {x d : P2} (hx : x ∈ A.extremePoints ℝ) (hd : d ≠ 0)
    (h : ∀ᶠ e in nhds (0 : ℝ), x + e • d ∈ A) : False := by
  have hneg : ∀ᶠ e in nhds (0 : ℝ), x + (-e) • d ∈ A := by
    have : Filter.Tendsto (fun e : ℝ => -e) (nhds 0) (nhds 0) := by
      have := (continuous_neg (G := ℝ)).tendsto 0
      simpa using this
    exact this.eventually h
  have hpos : ∀ᶠ e in nhdsWithin (0 : ℝ) (Set.Ioi 0), (0 : ℝ) < e := self_mem_nhdsWithin
  obtain ⟨e, ⟨h1, h2⟩, he0⟩ := (((h.and hneg).filter_mono nhdsWithin_le_nhds).and hpos).exists
  have h3 : x ∈ openSegment ℝ (x + e • d) (x + (-e) • d) :=
    ⟨1 / 2, 1 / 2, by norm_num, by norm_num, by norm_num, by ext <;> simp <;> ring⟩
  have h4 := hx.2 h1 h2 h3
  apply hd
  have h5 : e • d = 0 := by
    have : x + e • d = x + 0 := by rw [add_zero]; exact h4
    exact add_left_cancel this
  rcases smul_eq_zero.mp h5 with h | h
  · exact absurd h (ne_of_gt he0)
  · exact h

/-- A point of a segment is an end or in the open segment. -/
theorem segment_cases {a b x : P2} (hx : x ∈ segment ℝ a b) : x = a ∨ x = b ∨ (a ≠ b ∧ x ∈ openSegment ℝ a b) := by
  by_cases hab : a = b
  · subst hab
    rw [segment_same] at hx
    exact Or.inl hx
  · have := hx
    rw [← insert_endpoints_openSegment] at this
    simpa [Set.mem_insert_iff, hab] using this

/-- The extreme points of the intersection are corner points. -/
theorem extreme_corner {q1 q2 : Fin 4 → P2} (h1 : ConvexQuad q1) (h2 : ConvexQuad q2) {x : P2}
    (hx : x ∈ (quadRegion q1 ∩ quadRegion q2).extremePoints ℝ) : x ∈ cornerPoints q1 q2 := by
  have hx1 := hx.1.1
  have hx2 := hx.1.2
  rcases boundary h1 hx1 with b1 | ⟨i, b1⟩
  · rcases boundary h2 hx2 with b2 | ⟨j, b2⟩
    · exfalso
      refine not_extreme (d := ((1, 0) : P2)) hx (by simp) ?_
      filter_upwards [eventually_interior b1 (1, 0), eventually_interior b2 (1, 0)] with e e1 e2
      exact ⟨e1, e2⟩
    · rcases segment_cases b2 with b2 | b2 | ⟨n2, b2⟩
      · exact Or.inr (Or.inl ⟨j, b2, hx1⟩)
      · exact Or.inr (Or.inl ⟨j + 1, b2, hx1⟩)
      · exfalso
        refine not_extreme (d := q2 (j + 1) - q2 j) hx (sub_ne_zero.mpr n2.symm) ?_
        filter_upwards [eventually_interior b1 (q2 (j + 1) - q2 j), eventually_segment b2] with e e1 e2
        exact ⟨e1, segment_region j e2⟩
  · rcases segment_cases b1 with b1 | b1 | ⟨n1, b1⟩
    · exact Or.inl ⟨i, b1, hx2⟩
    · exact Or.inl ⟨i + 1, b1, hx2⟩
    · rcases boundary h2 hx2 with b2 | ⟨j, b2⟩
      · exfalso
        refine not_extreme (d := q1 (i + 1) - q1 i) hx (sub_ne_zero.mpr n1.symm) ?_
        filter_upwards [eventually_interior b2 (q1 (i + 1) - q1 i), eventually_segment b1] with e e1 e2
        exact ⟨segment_region i e2, e1⟩
      · rcases segment_cases b2 with b2 | b2 | ⟨n2, b2⟩
        · exact Or.inr (Or.inl ⟨j, b2, hx1⟩)
        · exact Or.inr (Or.inl ⟨j + 1, b2, hx1⟩)
        · by_cases hpar : (q1 (i + 1) - q1 i).1 * (q2 (j + 1) - q2 j).2 - (q1 (i + 1) - q1 i).2 * (q2 (j + 1) - q2 j).1 = 0
          · exfalso
            -- parallel edges: move along both
            have hne1 := sub_ne_zero.mpr n1.symm
            have hne2 := sub_ne_zero.mpr n2.symm
            obtain ⟨c, hc⟩ : ∃ c : ℝ, q1 (i + 1) - q1 i = c • (q2 (j + 1) - q2 j) := by
              generalize q1 (i + 1) - q1 i = u at *
              generalize q2 (j + 1) - q2 j = v at *
              obtain ⟨u1, u2⟩ := u
              obtain ⟨v1, v2⟩ := v
              dsimp only at hpar
              by_cases hv : v1 = 0
              · subst hv
                have hv2 : v2 ≠ 0 := by rintro rfl; exact hne2 rfl
                refine ⟨u2 / v2, ?_⟩
                ext
                · have : u1 = 0 := by
                    have : u1 * v2 = 0 := by linarith
                    exact (mul_eq_zero.mp this).resolve_right hv2
                  simp [this]
                · simp [hv2]
              · refine ⟨u1 / v1, ?_⟩
                ext
                · simp [hv]
                · simp only [Prod.smul_snd, smul_eq_mul]
                  field_simp
                  linarith
            refine not_extreme (d := q1 (i + 1) - q1 i) hx hne1 ?_
            have hc0 : Filter.Tendsto (fun e : ℝ => e * c) (nhds 0) (nhds 0) := by
              have : Continuous (fun e : ℝ => e * c) := by fun_prop
              have h0 := this.tendsto 0
              simpa using h0
            filter_upwards [eventually_segment b1, hc0.eventually (eventually_segment b2)] with e e1 e2
            refine ⟨segment_region i e1, segment_region j ?_⟩
            rw [hc, smul_smul]
            exact e2
          · exact Or.inr (Or.inr ⟨i, j, hpar, b1, b2⟩)

theorem corner_sub {q1 q2 : Fin 4 → P2} : cornerPoints q1 q2 ⊆ quadRegion q1 ∩ quadRegion q2 := by
  rintro p (⟨i, rfl, h⟩ | ⟨i, rfl, h⟩ | ⟨i, j, _, h1, h2⟩)
  · exact ⟨mem_region _ _, h⟩
  · exact ⟨h, mem_region _ _⟩
  · exact ⟨segment_region i (openSegment_subset_segment ℝ _ _ h1), segment_region j (openSegment_subset_segment ℝ _ _ h2)⟩

/-- The corner points span the intersection. -/
theorem hull_corner {q1 q2 : Fin 4 → P2} (h1 : ConvexQuad q1) (h2 : ConvexQuad q2) (hfin : (cornerPoints q1 q2).Finite) :
    convexHull ℝ (cornerPoints q1 q2) = quadRegion q1 ∩ quadRegion q2 := by
  have hconv : Convex ℝ (quadRegion q1 ∩ quadRegion q2) := (convex_convexHull ℝ _).inter (convex_convexHull ℝ _)
  apply Set.Subset.antisymm
  · exact convexHull_min corner_sub hconv
  · have hcomp : IsCompact (quadRegion q1 ∩ quadRegion q2) := (isCompact_region q1).inter (isCompact_region q2)
    rw [← closure_convexHull_extremePoints hcomp hconv]
    exact closure_minimal (convexHull_mono fun x hx => extreme_corner h1 h2 hx) (Set.Finite.isClosed_convexHull (𝕜 := ℝ) hfin)

/-- The corner points are in convex position. -/
theorem corner_convexPosition {q1 q2 : Fin 4 → P2} (h1 : ConvexQuad q1) (h2 : ConvexQuad q2) :
    ConvexPosition (cornerPoints q1 q2) := by
  have hsub : convexHull ℝ (cornerPoints q1 q2) ⊆ quadRegion q1 ∩ quadRegion q2 :=
    convexHull_min corner_sub ((convex_convexHull ℝ _).inter (convex_convexHull ℝ _))
  intro p hp hint
  have i1 := interior_mono (hsub.trans Set.inter_subset_left) hint
  have i2 := interior_mono (hsub.trans Set.inter_subset_right) hint
  rcases hp with ⟨i, rfl, _⟩ | ⟨i, rfl, _⟩ | ⟨i, j, _, b1, _⟩
  · exact edge_not_interior h1 (left_mem_segment ℝ _ _) i1
  · exact edge_not_interior h2 (left_mem_segment ℝ _ _) i2
  · exact edge_not_interior h1 (openSegment_subset_segment ℝ _ _ b1) i1

end Sg.Plane
