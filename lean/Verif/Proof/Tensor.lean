import Verif.Spec.Tensor
import Verif.Proof.FlowExact
/-
Interpolation on sheared product grids.
-/
namespace Sg.FlowInterp
open Sg.LinearSolve Sg.Triangulate Sg.QuadIntersect Sg.FindPoint Sg.QuadLine Sg.QuadFlows Sg.Spec Sg.Props Sg.Plane

theorem inc_le {m : Nat} {X : Nat → ℝ} (h : ∀ i, i < m → X i < X (i + 1)) {i j : Nat} (hij : i ≤ j) (hj : j ≤ m) : X i ≤ X j := by
  induction j, hij using Nat.le_induction with
  | base => exact le_rfl
  | succ j hij ih => exact (ih (by omega)).trans (h j (by omega)).le

theorem ramp_cell {m : Nat} {X : Nat → ℝ} (h : ∀ i, i < m → X i < X (i + 1)) {i : Nat} (hi : i < m) {t : ℝ} (h0 : 0 ≤ t) (h1 : t ≤ 1) :
    (∀ j < i, ramp X j (X i + t * (X (i + 1) - X i)) = 1) ∧ ramp X i (X i + t * (X (i + 1) - X i)) = t ∧
    ∀ j, i < j → j < m → ramp X j (X i + t * (X (i + 1) - X i)) = 0 := by
  have hd := h i hi
  have hu0 : X i ≤ X i + t * (X (i + 1) - X i) := by nlinarith
  have hu1 : X i + t * (X (i + 1) - X i) ≤ X (i + 1) := by nlinarith
  refine ⟨fun j hj => ?_, ?_, fun j hj hjm => ?_⟩
  · have hdj := h j (by omega)
    have := inc_le h (show j + 1 ≤ i by omega) (by omega)
    unfold ramp
    rw [min_eq_left, max_eq_right zero_le_one]
    rw [one_le_div (by linarith)]
    linarith
  · unfold ramp
    have : (X i + t * (X (i + 1) - X i) - X i) / (X (i + 1) - X i) = t := by
      have : X (i + 1) - X i ≠ 0 := by linarith
      field_simp
      ring
    rw [this, min_eq_right h1, max_eq_right h0]
  · have hdj := h j hjm
    have := inc_le h (show i + 1 ≤ j by omega) (by omega)
    unfold ramp
    rw [max_eq_left]
    refine (min_le_right _ _).trans (div_nonpos_of_nonpos_of_nonneg (by linarith) (by linarith))

/-- Between two nodes the interpolation is linear. -/
theorem pl_cell {m : Nat} {X : Nat → ℝ} (h : ∀ i, i < m → X i < X (i + 1)) (f : Nat → ℝ) {i : Nat} (hi : i < m) {t : ℝ} (h0 : 0 ≤ t)
    (h1 : t ≤ 1) : piecewiseLinear m X f (X i + t * (X (i + 1) - X i)) = (1 - t) * f i + t * f (i + 1) := by
  obtain ⟨r1, r2, r3⟩ := ramp_cell h hi h0 h1
  have key : ∀ k, k ≤ m → ∑ j ∈ Finset.range k, (f (j + 1) - f j) * ramp X j (X i + t * (X (i + 1) - X i)) =
      if k ≤ i then f k - f 0 else (1 - t) * f i + t * f (i + 1) - f 0 := by
    intro k
    induction k with
    | zero => intro _; simp
    | succ k ih =>
      intro hk
      rw [Finset.sum_range_succ, ih (by omega)]
      rcases lt_trichotomy k i with hlt | rfl | hgt
      · rw [r1 k hlt, if_pos (by omega), if_pos (by omega)]; ring
      · rw [r2, if_pos le_rfl, if_neg (by omega)]; ring
      · rw [r3 k hgt (by omega), if_neg (by omega), if_neg (by omega)]; ring
  unfold piecewiseLinear
  rw [key m le_rfl, if_neg (by omega)]
  ring

theorem exists_cell {X : Nat → ℝ} : ∀ {m : Nat} {u : ℝ}, 1 ≤ m → X 0 ≤ u → u ≤ X m → ∃ i < m, X i ≤ u ∧ u ≤ X (i + 1)
  | 0, _, h, _, _ => absurd h (by omega)
  | 1, u, _, h0, h1 => ⟨0, by omega, h0, h1⟩
  | m + 2, u, _, h0, h1 => by
    by_cases h : u ≤ X (m + 1)
    · obtain ⟨i, hi, h2⟩ := exists_cell (m := m + 1) (by omega) h0 h
      exact ⟨i, by omega, h2⟩
    · exact ⟨m + 1, by omega, (not_le.mp h).le, h1⟩

/-- Two numbers in two different cells. -/
theorem two_cells {m : Nat} {X : Nat → ℝ} (h : ∀ i, i < m → X i < X (i + 1)) {i j : Nat} (hij : i < j) (hj : j < m) {u : ℝ}
    (h2 : u ≤ X (i + 1)) (h3 : X j ≤ u) : u = X (i + 1) := by
  have := inc_le h (show i + 1 ≤ j by omega) (by omega)
  linarith

section
variable {n0 n1 : Nat} {X Y : Nat → ℝ} {c e0 e1 : P2} {xs ys : List ℝ}

/-- The coordinates of a point along `e0` and `e1`. -/
noncomputable def uOf (c e0 e1 p : P2) : ℝ := ((p.1 - c.1) * e1.2 - (p.2 - c.2) * e1.1) / (e0.1 * e1.2 - e0.2 * e1.1)
noncomputable def vOf (c e0 e1 p : P2) : ℝ := (e0.1 * (p.2 - c.2) - e0.2 * (p.1 - c.1)) / (e0.1 * e1.2 - e0.2 * e1.1)

theorem uv_point (hd : e0.1 * e1.2 - e0.2 * e1.1 ≠ 0) (u v : ℝ) :
    uOf c e0 e1 (c + u • e0 + v • e1) = u ∧ vOf c e0 e1 (c + u • e0 + v • e1) = v := by
  unfold uOf vOf
  constructor
  · rw [div_eq_iff hd]; simp; ring
  · rw [div_eq_iff hd]; simp; ring

theorem tensor_quad (h : TensorGrid n0 n1 X Y c e0 e1 xs ys) {i j : Nat} (hi : i < n0 - 1) (hj : j < n1 - 1) :
    gridQuad n1 xs ys i j 0 = c + X i • e0 + Y j • e1 ∧ gridQuad n1 xs ys i j 1 = c + X (i + 1) • e0 + Y j • e1 ∧
    gridQuad n1 xs ys i j 2 = c + X (i + 1) • e0 + Y (j + 1) • e1 ∧ gridQuad n1 xs ys i j 3 = c + X i • e0 + Y (j + 1) • e1 :=
  ⟨h.node _ _ (by omega) (by omega), h.node _ _ (by omega) (by omega), h.node _ _ (by omega) (by omega),
    h.node _ _ (by omega) (by omega)⟩

theorem tensor_parallelogram (h : TensorGrid n0 n1 X Y c e0 e1 xs ys) {i j : Nat} (hi : i < n0 - 1) (hj : j < n1 - 1) :
    Parallelogram (gridQuad n1 xs ys i j) := by
  obtain ⟨a, b, d, e⟩ := tensor_quad h hi hj
  have hx := sub_pos.mpr (h.incX i (by omega))
  have hy := sub_pos.mpr (h.incY j (by omega))
  refine ⟨?_, ?_, ?_⟩
  · rw [a, b, d, e]; simp; ring
  · rw [a, b, d, e]; simp; ring
  · rw [a, b, e]
    have : (X (i + 1) - X i) * (Y (j + 1) - Y j) * (e0.1 * e1.2 - e0.2 * e1.1) ≠ 0 :=
      mul_ne_zero (mul_pos hx hy).ne' h.det
    intro h0
    apply this
    simp only [Prod.fst_add, Prod.smul_fst, Prod.snd_add, Prod.smul_snd, smul_eq_mul] at h0
    linear_combination h0

theorem tensor_at (h : TensorGrid n0 n1 X Y c e0 e1 xs ys) {i j : Nat} (hi : i < n0 - 1) (hj : j < n1 - 1) (x : Fin 2 → ℝ) :
    at_ (gridQuad n1 xs ys i j) x = c + (X i + x 0 * (X (i + 1) - X i)) • e0 + (Y j + x 1 * (Y (j + 1) - Y j)) • e1 := by
  rw [at_affine (tensor_parallelogram h hi hj)]
  obtain ⟨a, b, d, e⟩ := tensor_quad h hi hj
  rw [a, b, e]
  ext <;> simp <;> ring

theorem tensor_phi (h : TensorGrid n0 n1 X Y c e0 e1 xs ys) (phi : Nat → Nat → ℝ) {i j : Nat} (hi : i < n0 - 1) (hj : j < n1 - 1)
    {x : Fin 2 → ℝ} (hx : InCell x) :
    tensorInterp n0 n1 X Y phi (uOf c e0 e1 (at_ (gridQuad n1 xs ys i j) x)) (vOf c e0 e1 (at_ (gridQuad n1 xs ys i j) x)) =
      bilin (cellPhi phi i j) x := by
  rw [tensor_at h hi hj, (uv_point h.det _ _).1, (uv_point h.det _ _).2]
  unfold tensorInterp
  rw [pl_cell (fun i hi => h.incY i (by omega)) _ hj (hx 1).1 (hx 1).2,
    pl_cell (fun i hi => h.incX i (by omega)) _ hi (hx 0).1 (hx 0).2,
    pl_cell (fun i hi => h.incX i (by omega)) _ hi (hx 0).1 (hx 0).2]
  simp only [bilin, cellPhi, cellNode]
  ring

/-- A point of a cell. -/
theorem tensor_region (h : TensorGrid n0 n1 X Y c e0 e1 xs ys) {i j : Nat} (hi : i < n0 - 1) (hj : j < n1 - 1) {u v : ℝ} :
    c + u • e0 + v • e1 ∈ quadRegion (gridQuad n1 xs ys i j) ↔ (X i ≤ u ∧ u ≤ X (i + 1)) ∧ Y j ≤ v ∧ v ≤ Y (j + 1) := by
  have hx := sub_pos.mpr (h.incX i (by omega))
  have hy := sub_pos.mpr (h.incY j (by omega))
  constructor
  · intro hp
    obtain ⟨x, hin, e⟩ := region_at (tensor_parallelogram h hi hj) hp
    rw [tensor_at h hi hj] at e
    obtain ⟨a1, a2⟩ := uv_point (c := c) h.det u v
    rw [e] at a1 a2
    rw [(uv_point h.det _ _).1] at a1
    rw [(uv_point h.det _ _).2] at a2
    obtain ⟨b0, b1⟩ := hin 0
    obtain ⟨c0, c1⟩ := hin 1
    refine ⟨⟨by nlinarith, by nlinarith⟩, by nlinarith, by nlinarith⟩
  · rintro ⟨⟨h1, h2⟩, h3, h4⟩
    have hin : InCell (fun k : Fin 2 => if k = 0 then (u - X i) / (X (i + 1) - X i) else (v - Y j) / (Y (j + 1) - Y j)) := by
      intro k
      beta_reduce
      split_ifs
      · exact ⟨div_nonneg (by linarith) hx.le, (div_le_one hx).mpr (by linarith)⟩
      · exact ⟨div_nonneg (by linarith) hy.le, (div_le_one hy).mpr (by linarith)⟩
    have := at_region (gridQuad n1 xs ys i j) hin
    rw [tensor_at h hi hj] at this
    have d1 : (u - X i) / (X (i + 1) - X i) * (X (i + 1) - X i) = u - X i := div_mul_cancel₀ _ hx.ne'
    have d2 : (v - Y j) / (Y (j + 1) - Y j) * (Y (j + 1) - Y j) = v - Y j := div_mul_cancel₀ _ hy.ne'
    have e1 : ¬ (1 : Fin 2) = 0 := by decide
    simpa only [if_true, if_neg e1, d1, d2, add_sub_cancel] using this

theorem line_uv (ua va ub vb t : ℝ) : (c + ua • e0 + va • e1) + t • ((c + ub • e0 + vb • e1) - (c + ua • e0 + va • e1)) =
    c + (ua + t * (ub - ua)) • e0 + (va + t * (vb - va)) • e1 := by
  ext <;> simp <;> ring

theorem between {x y a b t : ℝ} (h1 : x ≤ a) (h2 : a ≤ y) (h3 : x ≤ b) (h4 : b ≤ y) (t0 : 0 ≤ t) (t1 : t ≤ 1) :
    x ≤ a + t * (b - a) ∧ a + t * (b - a) ≤ y := by
  constructor <;> nlinarith

theorem tensor_cover (h : TensorGrid n0 n1 X Y c e0 e1 xs ys) (h0 : 2 ≤ n0) (h1 : 2 ≤ n1) {ua va ub vb : ℝ}
    (hua : X 0 ≤ ua ∧ ua ≤ X (n0 - 1)) (hub : X 0 ≤ ub ∧ ub ≤ X (n0 - 1)) (hva : Y 0 ≤ va ∧ va ≤ Y (n1 - 1))
    (hvb : Y 0 ≤ vb ∧ vb ≤ Y (n1 - 1)) :
    ∀ p ∈ segment ℝ (c + ua • e0 + va • e1) (c + ub • e0 + vb • e1), ∃ k < (n0 - 1) * (n1 - 1),
      p ∈ quadRegion (gridQuad n1 xs ys (k / (n1 - 1)) (k % (n1 - 1))) := by
  intro p hp
  obtain ⟨t, t0, t1, rfl⟩ := mem_segment_iff.mp hp
  rw [line_uv]
  obtain ⟨a1, a2⟩ := between hua.1 hua.2 hub.1 hub.2 t0 t1
  obtain ⟨b1, b2⟩ := between hva.1 hva.2 hvb.1 hvb.2 t0 t1
  obtain ⟨i, hi, hi'⟩ := exists_cell (by omega) a1 a2
  obtain ⟨j, hj, hj'⟩ := exists_cell (by omega) b1 b2
  refine ⟨i * (n1 - 1) + j, cell_lt hi hj, ?_⟩
  have e1 : (i * (n1 - 1) + j) / (n1 - 1) = i := by
    rw [Nat.add_comm, Nat.add_mul_div_right _ _ (by omega), Nat.div_eq_of_lt hj, Nat.zero_add]
  have e2 : (i * (n1 - 1) + j) % (n1 - 1) = j := by
    rw [Nat.add_comm, Nat.add_mul_mod_self_right, Nat.mod_eq_of_lt hj]
  rw [e1, e2, tensor_region h hi hj]
  exact ⟨hi', hj'⟩

/-- Numbers of a segment in two different cells, at two parameters. -/
theorem once_axis {m : Nat} {X : Nat → ℝ} (h : ∀ i, i < m → X i < X (i + 1)) {a b : ℝ} (hn : ∀ i, 0 < i → i < m → ¬ (a = X i ∧ b = X i))
    {i j : Nat} (hi : i < m) (hj : j < m) (hij : i ≠ j) {s t : ℝ}
    (s1 : X i ≤ a + s * (b - a) ∧ a + s * (b - a) ≤ X (i + 1)) (s2 : X j ≤ a + s * (b - a) ∧ a + s * (b - a) ≤ X (j + 1))
    (t1 : X i ≤ a + t * (b - a) ∧ a + t * (b - a) ≤ X (i + 1)) (t2 : X j ≤ a + t * (b - a) ∧ a + t * (b - a) ≤ X (j + 1)) : s = t := by
  by_contra hst
  have key : ∀ i j, i < j → j < m → a + s * (b - a) ≤ X (i + 1) → a + t * (b - a) ≤ X (i + 1) → X j ≤ a + s * (b - a) →
      X j ≤ a + t * (b - a) → False := by
    intro i j hij hj p1 p2 p3 p4
    have e1 := two_cells h hij hj p1 p3
    have e2 := two_cells h hij hj p2 p4
    have : (s - t) * (b - a) = 0 := by linarith
    rcases mul_eq_zero.mp this with h | h
    · exact hst (by linarith)
    · have hab : b = a := by linarith
      refine hn (i + 1) (by omega) (by omega) ⟨?_, ?_⟩
      · rw [← e1, hab]; ring
      · rw [← e1, hab]; ring
  rcases lt_or_gt_of_ne hij with h' | h'
  · exact key i j h' hj s1.2 t1.2 s2.1 t2.1
  · exact key j i h' hi s2.2 t2.2 s1.1 t1.1

theorem tensor_once (h : TensorGrid n0 n1 X Y c e0 e1 xs ys) {ua va ub vb : ℝ} (hn : NotAlong n0 n1 X Y ua va ub vb) :
    ∀ k < (n0 - 1) * (n1 - 1), ∀ l < (n0 - 1) * (n1 - 1), k ≠ l →
      (insideParams (gridQuad n1 xs ys (k / (n1 - 1)) (k % (n1 - 1))) (c + ua • e0 + va • e1) (c + ub • e0 + vb • e1) ∩
        insideParams (gridQuad n1 xs ys (l / (n1 - 1)) (l % (n1 - 1))) (c + ua • e0 + va • e1) (c + ub • e0 + vb • e1)).Subsingleton := by
  intro k hk l hl hkl s hs t ht
  obtain ⟨-, -, k1, k2⟩ := cell_split hk
  obtain ⟨-, -, l1, l2⟩ := cell_split hl
  obtain ⟨⟨-, -, s1⟩, -, -, s2⟩ := hs
  obtain ⟨⟨-, -, t1⟩, -, -, t2⟩ := ht
  rw [line_uv, tensor_region h k1 k2] at s1 t1
  rw [line_uv, tensor_region h l1 l2] at s2 t2
  by_cases hd : k / (n1 - 1) = l / (n1 - 1)
  · have hm : k % (n1 - 1) ≠ l % (n1 - 1) := by
      intro hm
      apply hkl
      rw [← Nat.div_add_mod' k (n1 - 1), ← Nat.div_add_mod' l (n1 - 1), hd, hm]
    exact once_axis (fun i hi => h.incY i (by omega)) hn.2 k2 l2 hm s1.2 s2.2 t1.2 t2.2
  · exact once_axis (fun i hi => h.incX i (by omega)) hn.1 k1 l1 hd s1.1 s2.1 t1.1 t2.1

end
end Sg.FlowInterp
