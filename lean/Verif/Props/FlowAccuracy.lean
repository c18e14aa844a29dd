import Verif.Spec.Circulation
import Verif.Props.FlowSegments
/-
Property C103: accuracy of the flows for the integrals of a vector field along the edges.  `g` is the linear algebra library,
`srt` is `std::sort` and `pert` the perturbation of the nodes of the line.
-/
namespace Sg.Props
open Sg Sg.FlowInterp Sg.QuadIntersect Sg.QuadFlows Sg.LinearSolve Sg.Triangulate Sg.FindPoint Sg.QuadLine Sg.Spec Sg.Plane MeasureTheory

theorem dotProd_smul (a b : P2) (r : ℝ) : dotProd a (r • b) = r * dotProd a b := by
  simp only [dotProd, Prod.smul_fst, Prod.smul_snd, smul_eq_mul]; ring

theorem dotProd_add (a b c : P2) : dotProd a (b + c) = dotProd a b + dotProd a c := by
  simp only [dotProd, Prod.fst_add, Prod.snd_add]; ring

theorem dotProd_continuous {s : Set ℝ} {f : ℝ → P2} (h : ContinuousOn f s) (e : P2) : ContinuousOn (fun t => dotProd (f t) e) s := by
  unfold dotProd
  exact ((continuous_fst.comp_continuousOn h).mul continuousOn_const).add ((continuous_snd.comp_continuousOn h).mul continuousOn_const)

/-- The integral along a segment in a set over which the component varies little. -/
theorem lineIntegral_near {v : P2 → P2} {S : Set P2} (hS : Convex ℝ S) (hv : ContinuousOn v S) {a b : P2} (ha : a ∈ S) (hb : b ∈ S) (e : P2) (r : ℝ)
    (he : b - a = r • e) (δ z : ℝ) (h : ∀ p ∈ S, |dotProd (v p) e - z| ≤ δ) : |lineIntegral v a b - r * z| ≤ |r| * δ := by
  have hmem : ∀ t ∈ Set.Icc (0 : ℝ) 1, a + t • (b - a) ∈ S := by
    intro t ht
    have := hS ha hb (sub_nonneg.2 ht.2) ht.1 (by ring)
    convert this using 1
    module
  have hc : ContinuousOn (fun t : ℝ => dotProd (v (a + t • (b - a))) (b - a)) (Set.Icc 0 1) :=
    dotProd_continuous (hv.comp (by fun_prop) hmem) _
  have hi : IntervalIntegrable (fun t : ℝ => dotProd (v (a + t • (b - a))) (b - a)) volume 0 1 :=
    ContinuousOn.intervalIntegrable (by rwa [Set.uIcc_of_le zero_le_one])
  have e1 : lineIntegral v a b - r * z = ∫ t in (0 : ℝ)..1, (dotProd (v (a + t • (b - a))) (b - a) - r * z) := by
    rw [intervalIntegral.integral_sub hi intervalIntegrable_const, intervalIntegral.integral_const]
    simp [lineIntegral]
  rw [e1]
  have := intervalIntegral.norm_integral_le_of_norm_le_const (a := (0 : ℝ)) (b := 1) (C := |r| * δ)
    (f := fun t => dotProd (v (a + t • (b - a))) (b - a) - r * z) (fun t ht => ?_)
  · simpa using this
  · rw [Set.uIoc_of_le zero_le_one] at ht
    rw [he, dotProd_smul, ← mul_sub, Real.norm_eq_abs, abs_mul, ← he]
    exact mul_le_mul_of_nonneg_left (h _ (hmem t ⟨ht.1.le, ht.2⟩)) (abs_nonneg _)

/-- A weighted mean of two numbers near `z`. -/
theorem edges_near {a b z D δ ξ : ℝ} (hD : 0 < D) (h0 : 0 ≤ ξ) (h1 : ξ ≤ 1) (ha : |a - D * z| ≤ D * δ) (hb : |b - D * z| ≤ D * δ) :
    |((1 - ξ) * a + ξ * b) / D - z| ≤ δ := by
  have e : ((1 - ξ) * a + ξ * b) / D - z = ((1 - ξ) * (a - D * z) + ξ * (b - D * z)) / D := by
    field_simp; ring
  rw [e, abs_div, abs_of_pos hD, div_le_iff₀ hD]
  refine (abs_add_le _ _).trans ?_
  rw [abs_mul, abs_mul, abs_of_nonneg h0, abs_of_nonneg (sub_nonneg.2 h1)]
  have := mul_le_mul_of_nonneg_left ha (sub_nonneg.2 h1)
  have := mul_le_mul_of_nonneg_left hb h0
  linarith

section
variable {n0 n1 : Nat} {X Y : Nat → ℝ} {c e0 e1 : P2} {xs ys : List ℝ}

theorem tensor_cellVector (h : TensorGrid n0 n1 X Y c e0 e1 xs ys) {i j : Nat} (hi : i < n0 - 1) (hj : j < n1 - 1) (r s : ℝ) :
    cellVector (gridQuad n1 xs ys i j) (r • e0 + s • e1) = (r / (X (i + 1) - X i), s / (Y (j + 1) - Y j)) := by
  obtain ⟨a, b, d, e⟩ := tensor_quad h hi hj
  have hx := sub_pos.mpr (h.incX i (by omega))
  have hy := sub_pos.mpr (h.incY j (by omega))
  have hd := h.det
  unfold cellVector
  rw [a, b, e]
  have k0 : c + X (i + 1) • e0 + Y j • e1 - (c + X i • e0 + Y j • e1) = (X (i + 1) - X i) • e0 := by module
  have k1 : c + X i • e0 + Y (j + 1) • e1 - (c + X i • e0 + Y j • e1) = (Y (j + 1) - Y j) • e1 := by module
  rw [k0, k1]
  generalize X (i + 1) - X i = D at *
  generalize Y (j + 1) - Y j = G at *
  simp only [Prod.smul_fst, Prod.smul_snd, Prod.fst_add, Prod.snd_add, smul_eq_mul]
  have hne : D * e0.1 * (G * e1.2) - D * e0.2 * (G * e1.1) ≠ 0 := by
    have : D * e0.1 * (G * e1.2) - D * e0.2 * (G * e1.1) = D * G * (e0.1 * e1.2 - e0.2 * e1.1) := by ring
    rw [this]
    exact mul_ne_zero (mul_pos hx hy).ne' hd
  refine Prod.ext ?_ ?_
  · dsimp only
    rw [div_eq_div_iff hne hx.ne']
    ring
  · dsimp only
    rw [div_eq_div_iff hne hy.ne']
    ring

/-- The field given by the integrals along the edges is near the vector field. -/
theorem tensor_field_near (h : TensorGrid n0 n1 X Y c e0 e1 xs ys) {i j : Nat} (hi : i < n0 - 1) (hj : j < n1 - 1) {v : P2 → P2}
    (hv : ContinuousOn v (quadRegion (gridQuad n1 xs ys i j))) {x y : List ℝ} (hE : EdgeIntegrals n0 n1 xs ys v x y)
    {u w r s δ0 δ1 : ℝ} (hu : X i ≤ u ∧ u ≤ X (i + 1)) (hw : Y j ≤ w ∧ w ≤ Y (j + 1))
    (h0 : ∀ p ∈ quadRegion (gridQuad n1 xs ys i j), |dotProd (v p) e0 - dotProd (v (c + u • e0 + w • e1)) e0| ≤ δ0)
    (h1 : ∀ p ∈ quadRegion (gridQuad n1 xs ys i j), |dotProd (v p) e1 - dotProd (v (c + u • e0 + w • e1)) e1| ≤ δ1) :
    |edgeField (gridQuad n1 xs ys i j) (edgeData n1 x y i j) (c + u • e0 + w • e1) (r • e0 + s • e1) -
      dotProd (v (c + u • e0 + w • e1)) (r • e0 + s • e1)| ≤ δ0 * |r| + δ1 * |s| := by
  have hx := sub_pos.mpr (h.incX i (by omega))
  have hy := sub_pos.mpr (h.incY j (by omega))
  have hn : ∀ k l, k < n0 → l < n1 → gridPoint n1 xs ys k l = c + X k • e0 + Y l • e1 := fun k l hk hl => h.node k l hk hl
  have hcv : Convex ℝ (quadRegion (gridQuad n1 xs ys i j)) := convex_convexHull ℝ _
  have hm := fun a b => (tensor_region h hi hj (u := a) (v := b)).2
  have xl := (h.incX i (by omega)).le
  have yl := (h.incY j (by omega)).le
  have a0 := lineIntegral_near hcv hv (hm (X i) (Y j) ⟨⟨le_rfl, xl⟩, le_rfl, yl⟩) (hm (X (i + 1)) (Y j) ⟨⟨xl, le_rfl⟩, le_rfl, yl⟩) e0 (X (i + 1) - X i)
    (by module) δ0 _ h0
  have a1 := lineIntegral_near hcv hv (hm (X i) (Y (j + 1)) ⟨⟨le_rfl, xl⟩, yl, le_rfl⟩) (hm (X (i + 1)) (Y (j + 1)) ⟨⟨xl, le_rfl⟩, yl, le_rfl⟩) e0
    (X (i + 1) - X i) (by module) δ0 _ h0
  have a2 := lineIntegral_near hcv hv (hm (X i) (Y j) ⟨⟨le_rfl, xl⟩, le_rfl, yl⟩) (hm (X i) (Y (j + 1)) ⟨⟨le_rfl, xl⟩, yl, le_rfl⟩) e1 (Y (j + 1) - Y j)
    (by module) δ1 _ h1
  have a3 := lineIntegral_near hcv hv (hm (X (i + 1)) (Y j) ⟨⟨xl, le_rfl⟩, le_rfl, yl⟩) (hm (X (i + 1)) (Y (j + 1)) ⟨⟨xl, le_rfl⟩, yl, le_rfl⟩) e1
    (Y (j + 1) - Y j) (by module) δ1 _ h1
  rw [← hn _ _ (by omega) (by omega), ← hn _ _ (by omega) (by omega)] at a0 a1 a2 a3
  rw [← hE.first i j hi (by omega), abs_of_pos hx] at a0
  rw [← hE.first i (j + 1) hi (by omega), abs_of_pos hx] at a1
  rw [← hE.second i j (by omega) hj, abs_of_pos hy] at a2
  rw [← hE.second (i + 1) j (by omega) hj, abs_of_pos hy] at a3
  have hξ : cellVector (gridQuad n1 xs ys i j) (c + u • e0 + w • e1 - gridQuad n1 xs ys i j 0) =
      ((u - X i) / (X (i + 1) - X i), (w - Y j) / (Y (j + 1) - Y j)) := by
    rw [(tensor_quad h hi hj).1, ← tensor_cellVector h hi hj]
    congr 1
    module
  have ξ0 : 0 ≤ (u - X i) / (X (i + 1) - X i) ∧ (u - X i) / (X (i + 1) - X i) ≤ 1 :=
    ⟨div_nonneg (by linarith [hu.1]) hx.le, (div_le_one hx).2 (by linarith [hu.2])⟩
  have ξ1 : 0 ≤ (w - Y j) / (Y (j + 1) - Y j) ∧ (w - Y j) / (Y (j + 1) - Y j) ≤ 1 :=
    ⟨div_nonneg (by linarith [hw.1]) hy.le, (div_le_one hy).2 (by linarith [hw.2])⟩
  have b0 := edges_near hx ξ1.1 ξ1.2 a0 a1
  have b1 := edges_near hy ξ0.1 ξ0.2 a2 a3
  have ef : edgeField (gridQuad n1 xs ys i j) (edgeData n1 x y i j) (c + u • e0 + w • e1) (r • e0 + s • e1) =
      ((1 - (w - Y j) / (Y (j + 1) - Y j)) * x.getD (xEdge n1 i j) 0 + (w - Y j) / (Y (j + 1) - Y j) * x.getD (xEdge n1 i (j + 1)) 0) / (X (i + 1) - X i) * r +
      ((1 - (u - X i) / (X (i + 1) - X i)) * y.getD (yEdge n1 i j) 0 + (u - X i) / (X (i + 1) - X i) * y.getD (yEdge n1 (i + 1) j) 0) / (Y (j + 1) - Y j) * s := by
    unfold edgeField
    rw [hξ, tensor_cellVector h hi hj]
    simp only [edgeData]
    ring
  rw [ef, dotProd_add, dotProd_smul, dotProd_smul]
  generalize ((1 - (w - Y j) / (Y (j + 1) - Y j)) * x.getD (xEdge n1 i j) 0 + (w - Y j) / (Y (j + 1) - Y j) * x.getD (xEdge n1 i (j + 1)) 0) / (X (i + 1) - X i) = A at *
  generalize ((1 - (u - X i) / (X (i + 1) - X i)) * y.getD (yEdge n1 i j) 0 + (u - X i) / (X (i + 1) - X i) * y.getD (yEdge n1 (i + 1) j) 0) / (Y (j + 1) - Y j) = B at *
  generalize dotProd (v (c + u • e0 + w • e1)) e0 = z0 at *
  generalize dotProd (v (c + u • e0 + w • e1)) e1 = z1 at *
  have e : A * r + B * s - (r * z0 + s * z1) = (A - z0) * r + (B - z1) * s := by ring
  rw [e]
  refine (abs_add_le _ _).trans ?_
  rw [abs_mul, abs_mul]
  exact add_le_add (mul_le_mul_of_nonneg_right b0 (abs_nonneg _)) (mul_le_mul_of_nonneg_right b1 (abs_nonneg _))

/-- The integral along a segment with a constant component. -/
theorem lineIntegral_const {v : P2 → P2} {a b e : P2} {r z : ℝ} (he : b - a = r • e) (h : ∀ t : ℝ, dotProd (v (a + t • (b - a))) e = z) :
    lineIntegral v a b = r * z := by
  unfold lineIntegral
  have : (fun t : ℝ => dotProd (v (a + t • (b - a))) (b - a)) = fun _ => r * z := by
    funext t
    rw [← h t, ← dotProd_smul, ← he]
  rw [this, intervalIntegral.integral_const]
  simp

/-- The field given by the integrals along the edges is the vector field if each component is linear in the other coordinate. -/
theorem tensor_field_exact (h : TensorGrid n0 n1 X Y c e0 e1 xs ys) {i j : Nat} (hi : i < n0 - 1) (hj : j < n1 - 1) {v : P2 → P2}
    {α0 β0 α1 β1 : ℝ} (hv0 : ∀ u w : ℝ, dotProd (v (c + u • e0 + w • e1)) e0 = α0 + β0 * w)
    (hv1 : ∀ u w : ℝ, dotProd (v (c + u • e0 + w • e1)) e1 = α1 + β1 * u) {x y : List ℝ} (hE : EdgeIntegrals n0 n1 xs ys v x y)
    {u w r s : ℝ} :
    edgeField (gridQuad n1 xs ys i j) (edgeData n1 x y i j) (c + u • e0 + w • e1) (r • e0 + s • e1) =
      dotProd (v (c + u • e0 + w • e1)) (r • e0 + s • e1) := by
  have hx := (sub_pos.mpr (h.incX i (by omega))).ne'
  have hy := (sub_pos.mpr (h.incY j (by omega))).ne'
  have hn : ∀ k l, k < n0 → l < n1 → gridPoint n1 xs ys k l = c + X k • e0 + Y l • e1 := fun k l hk hl => h.node k l hk hl
  have a0 : ∀ l, l < n1 → x.getD (xEdge n1 i l) 0 = (X (i + 1) - X i) * (α0 + β0 * Y l) := by
    intro l hl
    rw [hE.first i l hi hl, hn _ _ (by omega) hl, hn _ _ (by omega) hl]
    refine lineIntegral_const (e := e0) (by module) fun t => ?_
    rw [← hv0 (X i + t * (X (i + 1) - X i)) (Y l)]
    congr 2
    module
  have a1 : ∀ k, k < n0 → y.getD (yEdge n1 k j) 0 = (Y (j + 1) - Y j) * (α1 + β1 * X k) := by
    intro k hk
    rw [hE.second k j hk hj, hn _ _ hk (by omega), hn _ _ hk (by omega)]
    refine lineIntegral_const (e := e1) (by module) fun t => ?_
    rw [← hv1 (X k) (Y j + t * (Y (j + 1) - Y j))]
    congr 2
    module
  have hξ : cellVector (gridQuad n1 xs ys i j) (c + u • e0 + w • e1 - gridQuad n1 xs ys i j 0) =
      ((u - X i) / (X (i + 1) - X i), (w - Y j) / (Y (j + 1) - Y j)) := by
    rw [(tensor_quad h hi hj).1, ← tensor_cellVector h hi hj]
    congr 1
    module
  rw [dotProd_add, dotProd_smul, dotProd_smul, hv0, hv1]
  unfold edgeField
  rw [hξ, tensor_cellVector h hi hj]
  simp only [edgeData]
  rw [a0 j (by omega), a0 (j + 1) (by omega), a1 i (by omega), a1 (i + 1) (by omega)]
  field_simp
  ring
end

/-- Integrals over the parts of the unit interval. -/
theorem integral_pieces (N : Nat) (I : Nat → Set ℝ) (hI : ∀ k, IsCompact (I k)) (hdis : ∀ k < N, ∀ l < N, k ≠ l → (I k ∩ I l).Subsingleton)
    (hcov : (⋃ k ∈ Finset.range N, I k) = Set.Icc 0 1) (f : ℝ → ℝ) (hf : IntegrableOn f (Set.Icc 0 1)) :
    ∫ t in Set.Icc (0 : ℝ) 1, f t = ∑ k ∈ Finset.range N, ∫ t in I k, f t := by
  have e : (⋃ k ∈ Finset.range N, I k) = ⋃ k : Fin N, I k := by
    ext p
    simp only [Set.mem_iUnion, Finset.mem_range]
    constructor
    · rintro ⟨k, hk, h⟩; exact ⟨⟨k, hk⟩, h⟩
    · rintro ⟨k, h⟩; exact ⟨k, k.2, h⟩
  rw [← hcov, e, integral_iUnion_ae, tsum_fintype, Finset.sum_range]
  · exact fun k => (hI k).isClosed.measurableSet.nullMeasurableSet
  · intro k l hkl
    exact (hdis k k.2 l l.2 fun h => hkl (Fin.ext h)).measure_zero volume
  · rw [← e, hcov]
    exact hf

/-- If the edge fields of the cells are near the field along a segment, so is the sum of their integrals. -/
theorem sum_fields_near {v : P2 → P2} (N : Nat) (Q : Nat → Quad ℝ) (E : Nat → Fin 4 → ℝ) (a b : P2) (η : ℝ)
    (hv : ContinuousOn (fun t : ℝ => dotProd (v (a + t • (b - a))) (b - a)) (Set.Icc 0 1))
    (honce : ∀ k < N, ∀ l < N, k ≠ l → (insideParams (Q k) a b ∩ insideParams (Q l) a b).Subsingleton)
    (hcov : ∀ p ∈ segment ℝ a b, ∃ k < N, p ∈ quadRegion (Q k))
    (hnear : ∀ k < N, ∀ t ∈ insideParams (Q k) a b, |edgeField (Q k) (E k) (a + t • (b - a)) (b - a) - dotProd (v (a + t • (b - a))) (b - a)| ≤ η) :
    (∃ k < N, (insideParams (Q k) a b).Nontrivial) ∧
    |∑ k ∈ Finset.range N, fieldIntegral (Q k) (E k) a b - lineIntegral v a b| ≤ η := by
  have hc : (⋃ k ∈ Finset.range N, insideParams (Q k) a b) = Set.Icc 0 1 := by
    ext t
    simp only [Set.mem_iUnion, Finset.mem_range, exists_prop, insideParams, Set.mem_ofPred_eq, Set.mem_Icc]
    constructor
    · rintro ⟨k, -, h0, h1, -⟩; exact ⟨h0, h1⟩
    · rintro ⟨h0, h1⟩
      obtain ⟨k, hk, h⟩ := hcov (a + t • (b - a)) (mem_segment_iff.2 ⟨t, h0, h1, rfl⟩)
      exact ⟨k, hk, h0, h1, h⟩
  constructor
  · by_contra hno
    push Not at hno
    have hfin : (⋃ k ∈ Finset.range N, insideParams (Q k) a b).Finite :=
      Set.Finite.biUnion (Finset.finite_toSet _) fun k hk => (Set.not_nontrivial_iff.1 (by simpa using hno k (Finset.mem_range.1 hk))).finite
    rw [hc] at hfin
    exact (Set.Icc_infinite zero_lt_one) hfin
  have hint : IntegrableOn (fun t : ℝ => dotProd (v (a + t • (b - a))) (b - a)) (Set.Icc 0 1) := hv.integrableOn_compact isCompact_Icc
  have hone : IntegrableOn (fun _ : ℝ => (1 : ℝ)) (Set.Icc 0 1) := continuousOn_const.integrableOn_compact isCompact_Icc
  have hsub : ∀ k ∈ Finset.range N, insideParams (Q k) a b ⊆ Set.Icc 0 1 := fun k _ t ht => ⟨ht.1, ht.2.1⟩
  have h1 := integral_pieces N _ (fun k => inside_compact (Q k) a b) honce hc _ hint
  have h2 := integral_pieces N _ (fun k => inside_compact (Q k) a b) honce hc _ hone
  have hl : lineIntegral v a b = ∫ t in Set.Icc (0 : ℝ) 1, dotProd (v (a + t • (b - a))) (b - a) := by
    rw [lineIntegral, intervalIntegral.integral_of_le zero_le_one, integral_Icc_eq_integral_Ioc]
  rw [hl, h1, ← Finset.sum_sub_distrib]
  have hterm : ∀ k ∈ Finset.range N, |fieldIntegral (Q k) (E k) a b - ∫ t in insideParams (Q k) a b, dotProd (v (a + t • (b - a))) (b - a)| ≤
      η * ∫ t in insideParams (Q k) a b, (1 : ℝ) := by
    intro k hk
    have hi2 : IntegrableOn (fun t => edgeField (Q k) (E k) (a + t • (b - a)) (b - a)) (insideParams (Q k) a b) := by
      simp only [edgeField_line]
      exact (by fun_prop : Continuous fun t : ℝ => coef0 (Q k) (E k) a b + coef1 (Q k) (E k) a b * t).continuousOn.integrableOn_compact (inside_compact _ _ _)
    have hi1 := hint.mono_set (hsub k hk)
    unfold fieldIntegral
    rw [← integral_sub hi2 hi1]
    have := norm_setIntegral_le_of_norm_le_const (μ := volume) (f := fun t => edgeField (Q k) (E k) (a + t • (b - a)) (b - a) - dotProd (v (a + t • (b - a))) (b - a))
      (inside_compact (Q k) a b).measure_lt_top (fun t ht => hnear k (Finset.mem_range.1 hk) t ht)
    rw [setIntegral_const, smul_eq_mul, mul_one]
    exact this
  refine (Finset.abs_sum_le_sum_abs _ _).trans ((Finset.sum_le_sum hterm).trans ?_)
  rw [← Finset.mul_sum, ← h2]
  simp

section
variable (pert : Nat → Nat → Nat → ℝ) (g : Gels ℝ) (hg : GelsContract g) (srt : List ℝ → List ℝ)
    (hsrt : ∀ l, SortsTo l (srt l)) (n0 n1 : Nat) (h0 : 2 ≤ n0) (h1 : 2 ≤ n1) (hf : n0 * n1 ≤ 1073741824) (xs ys : List ℝ)
    (hx : n0 * n1 ≤ xs.length) (hy : n0 * n1 ≤ ys.length) (n : Nat) (hn : 1 ≤ n) (us vs : List ℝ) (hu : n ≤ us.length)
    (hv : n ≤ vs.length) (X Y : Nat → ℝ) (c e0 e1 : ℝ × ℝ) (hT : TensorGrid n0 n1 X Y c e0 e1 xs ys)
include hg hsrt h0 h1 hf hx hy hn hu hv hT

/-- **C103**, in real numbers, on a sheared product grid: if the edge data are the integrals of a continuous vector field along the edges
and over each cell the components of the field along the axes `e0` and `e1` vary by no more than `δ0` and `δ1`, then the flow of a segment (as stored)
with its ends in the grid, which does not run along a grid line inside the grid and for which no decision is closer than the tolerance of the
intersector, differs from the integral of the field along the segment by no more than `δ0` times its extent along `e0` plus `δ1` times that along `e1`. -/
theorem C103_flow (v : ℝ × ℝ → ℝ × ℝ) (hvc : ContinuousOn v (cellsRegion n0 n1 xs ys)) (x y : List ℝ) (hE : EdgeIntegrals n0 n1 xs ys v x y)
    (δ0 δ1 : ℝ) (hd0 : FieldVaries n0 n1 xs ys v e0 δ0) (hd1 : FieldVaries n0 n1 xs ys v e1 δ1) (d : List ℝ) (hd : n - 1 ≤ d.length)
    (U V : Nat → ℝ) (hUV : ∀ k < n, movedNode pert n us vs k = c + U k • e0 + V k • e1) :
    ∃ d', flowWith pert g srt [] n0 n1 xs ys n us vs 1 x y d = .ok d' ∧
      ∀ k < n - 1, GoodSegment n0 n1 X Y xs ys (movedNode pert n us vs k) (movedNode pert n us vs (k + 1)) (U k) (V k) (U (k + 1)) (V (k + 1)) →
        ∃ f, d'[k]? = some f ∧
          |f - lineIntegral v (movedNode pert n us vs k) (movedNode pert n us vs (k + 1))| ≤ δ0 * |U (k + 1) - U k| + δ1 * |V (k + 1) - V k| := by
  obtain ⟨d', e, hall⟩ := C79_integral_partial pert g hg srt hsrt n0 n1 h0 h1 hf xs ys hx hy n hn us vs hu hv
    (fun i hi j hj => tensor_parallelogram hT hi hj) x y hE.lenx hE.leny d hd
  refine ⟨d', e, fun k hk hgood => ?_⟩
  have ea := hUV k (by omega)
  have eb := hUV (k + 1) (by omega)
  have hcell := fun {k} (hk : k < (n0 - 1) * (n1 - 1)) => (cell_split hk).2.2
  set a := movedNode pert n us vs k with hadef
  set b := movedNode pert n us vs (k + 1) with hbdef
  have hba : b - a = (U (k + 1) - U k) • e0 + (V (k + 1) - V k) • e1 := by rw [ea, eb]; module
  have hcover : ∀ p ∈ segment ℝ a b, ∃ m < (n0 - 1) * (n1 - 1), p ∈ quadRegion (gridQuad n1 xs ys (m / (n1 - 1)) (m % (n1 - 1))) := by
    rw [ea, eb]; exact tensor_cover hT h0 h1 hgood.ina.1 hgood.inb.1 hgood.ina.2 hgood.inb.2
  have hline : ContinuousOn (fun t : ℝ => dotProd (v (a + t • (b - a))) (b - a)) (Set.Icc 0 1) := by
    refine dotProd_continuous (hvc.comp (by fun_prop) fun t ht => ?_) _
    obtain ⟨m, hm, hp⟩ := hcover (a + t • (b - a)) (mem_segment_iff.2 ⟨t, ht.1, ht.2, rfl⟩)
    exact ⟨_, (hcell hm).1, _, (hcell hm).2, hp⟩
  obtain ⟨⟨m, hm, hnt⟩, hsum⟩ := sum_fields_near (v := v) ((n0 - 1) * (n1 - 1)) (fun m => gridQuad n1 xs ys (m / (n1 - 1)) (m % (n1 - 1)))
    (fun m => edgeData n1 x y (m / (n1 - 1)) (m % (n1 - 1))) a b (δ0 * |U (k + 1) - U k| + δ1 * |V (k + 1) - V k|) hline
    (by rw [ea, eb]; exact tensor_once hT hgood.along) hcover
    (by
      intro m hm t ht
      obtain ⟨hi, hj⟩ := hcell hm
      have ep : a + t • (b - a) = c + (U k + t * (U (k + 1) - U k)) • e0 + (V k + t * (V (k + 1) - V k)) • e1 := by
        rw [ea, eb]; module
      have hp := ht.2.2
      rw [ep] at hp
      have hp' := (tensor_region hT hi hj).1 hp
      rw [hba] at ep ⊢
      rw [ep]
      exact tensor_field_near hT hi hj (hvc.mono fun p hp => ⟨_, hi, _, hj, hp⟩) hE hp'.1 hp'.2 (fun q hq => hd0 _ hi _ hj q hq _ hp)
        (fun q hq => hd1 _ hi _ hj q hq _ hp))
  refine ⟨_, hall k hk a b rfl rfl ⟨_, (hcell hm).1, _, (hcell hm).2, hnt⟩ hgood.clear, ?_⟩
  rw [← sum_cells n0 n1 (by omega) (fun i j => fieldIntegral (gridQuad n1 xs ys i j) (edgeData n1 x y i j) a b)]
  exact hsum

/-- **C103**: the flow is the integral itself, for any segment as in `C103_flow`, if the component of the field along each axis is a linear function of
the coordinate along the other axis (over the whole plane). -/
theorem C103_exact (v : ℝ × ℝ → ℝ × ℝ) (α0 β0 α1 β1 : ℝ) (hv0 : ∀ u w : ℝ, dotProd (v (c + u • e0 + w • e1)) e0 = α0 + β0 * w)
    (hv1 : ∀ u w : ℝ, dotProd (v (c + u • e0 + w • e1)) e1 = α1 + β1 * u) (x y : List ℝ) (hE : EdgeIntegrals n0 n1 xs ys v x y)
    (d : List ℝ) (hd : n - 1 ≤ d.length) (U V : Nat → ℝ) (hUV : ∀ k < n, movedNode pert n us vs k = c + U k • e0 + V k • e1) :
    ∃ d', flowWith pert g srt [] n0 n1 xs ys n us vs 1 x y d = .ok d' ∧
      ∀ k < n - 1, GoodSegment n0 n1 X Y xs ys (movedNode pert n us vs k) (movedNode pert n us vs (k + 1)) (U k) (V k) (U (k + 1)) (V (k + 1)) →
        d'[k]? = some (lineIntegral v (movedNode pert n us vs k) (movedNode pert n us vs (k + 1))) := by
  obtain ⟨d', e, hall⟩ := C79_integral_partial pert g hg srt hsrt n0 n1 h0 h1 hf xs ys hx hy n hn us vs hu hv
    (fun i hi j hj => tensor_parallelogram hT hi hj) x y hE.lenx hE.leny d hd
  refine ⟨d', e, fun k hk hgood => ?_⟩
  have ea := hUV k (by omega)
  have eb := hUV (k + 1) (by omega)
  have hcell := fun {k} (hk : k < (n0 - 1) * (n1 - 1)) => (cell_split hk).2.2
  set a := movedNode pert n us vs k with hadef
  set b := movedNode pert n us vs (k + 1) with hbdef
  have hba : b - a = (U (k + 1) - U k) • e0 + (V (k + 1) - V k) • e1 := by rw [ea, eb]; module
  have hcover : ∀ p ∈ segment ℝ a b, ∃ m < (n0 - 1) * (n1 - 1), p ∈ quadRegion (gridQuad n1 xs ys (m / (n1 - 1)) (m % (n1 - 1))) := by
    rw [ea, eb]; exact tensor_cover hT h0 h1 hgood.ina.1 hgood.inb.1 hgood.ina.2 hgood.inb.2
  have ep : ∀ t : ℝ, a + t • (b - a) = c + (U k + t * (U (k + 1) - U k)) • e0 + (V k + t * (V (k + 1) - V k)) • e1 := by
    intro t; rw [ea, eb]; module
  have hline : ContinuousOn (fun t : ℝ => dotProd (v (a + t • (b - a))) (b - a)) (Set.Icc 0 1) := by
    have : (fun t : ℝ => dotProd (v (a + t • (b - a))) (b - a)) = fun t : ℝ =>
        (U (k + 1) - U k) * (α0 + β0 * (V k + t * (V (k + 1) - V k))) + (V (k + 1) - V k) * (α1 + β1 * (U k + t * (U (k + 1) - U k))) := by
      funext t
      rw [ep, hba, dotProd_add, dotProd_smul, dotProd_smul, hv0, hv1]
    rw [this]
    fun_prop
  obtain ⟨⟨m, hm, hnt⟩, hsum⟩ := sum_fields_near (v := v) ((n0 - 1) * (n1 - 1)) (fun m => gridQuad n1 xs ys (m / (n1 - 1)) (m % (n1 - 1)))
    (fun m => edgeData n1 x y (m / (n1 - 1)) (m % (n1 - 1))) a b 0 hline
    (by rw [ea, eb]; exact tensor_once hT hgood.along) hcover
    (by
      intro m hm t ht
      obtain ⟨hi, hj⟩ := hcell hm
      rw [ep, hba, tensor_field_exact hT hi hj hv0 hv1 hE, sub_self, abs_zero])
  rw [hall k hk a b rfl rfl ⟨_, (hcell hm).1, _, (hcell hm).2, hnt⟩ hgood.clear,
    ← sum_cells n0 n1 (by omega) (fun i j => fieldIntegral (gridQuad n1 xs ys i j) (edgeData n1 x y i j) a b)]
  exact congrArg some (sub_eq_zero.1 (abs_eq_zero.1 (le_antisymm hsum (abs_nonneg _))))

/-- **C103**: a rigid motion with speed `(p, q)` at the origin and angular speed `ω`, on any sheared product grid: the flow of a segment as in `C103_flow` is the velocity at its
midpoint times the segment. -/
theorem C103_rigid (p q ω : ℝ) (x y : List ℝ) (hE : EdgeIntegrals n0 n1 xs ys (fun z => (p - ω * z.2, q + ω * z.1)) x y)
    (d : List ℝ) (hd : n - 1 ≤ d.length) (U V : Nat → ℝ) (hUV : ∀ k < n, movedNode pert n us vs k = c + U k • e0 + V k • e1) :
    ∃ d', flowWith pert g srt [] n0 n1 xs ys n us vs 1 x y d = .ok d' ∧
      ∀ k < n - 1, ∀ a b, a = movedNode pert n us vs k → b = movedNode pert n us vs (k + 1) →
        GoodSegment n0 n1 X Y xs ys a b (U k) (V k) (U (k + 1)) (V (k + 1)) →
        d'[k]? = some ((p - ω * ((a.2 + b.2) / 2)) * (b.1 - a.1) + (q + ω * ((a.1 + b.1) / 2)) * (b.2 - a.2)) := by
  obtain ⟨d', e, hall⟩ := C103_exact pert g hg srt hsrt n0 n1 h0 h1 hf xs ys hx hy n hn us vs hu hv X Y c e0 e1 hT (fun z => (p - ω * z.2, q + ω * z.1))
    (p * e0.1 + q * e0.2 + ω * (c.1 * e0.2 - c.2 * e0.1)) (ω * (e1.1 * e0.2 - e1.2 * e0.1))
    (p * e1.1 + q * e1.2 + ω * (c.1 * e1.2 - c.2 * e1.1)) (ω * (e0.1 * e1.2 - e0.2 * e1.1))
    (by intro u w; simp [dotProd]; ring) (by intro u w; simp [dotProd]; ring) x y hE d hd U V hUV
  refine ⟨d', e, fun k hk a b ea eb hgood => ?_⟩
  subst ea eb
  rw [hall k hk hgood]
  congr 1
  generalize movedNode pert n us vs k = a
  generalize movedNode pert n us vs (k + 1) = b
  have : lineIntegral (fun z => (p - ω * z.2, q + ω * z.1)) a b = ∫ t in (0 : ℝ)..1, ((p - ω * ((a.2 + b.2) / 2)) * (b.1 - a.1) + (q + ω * ((a.1 + b.1) / 2)) * (b.2 - a.2)) := by
    unfold lineIntegral
    congr 1
    funext t
    simp [dotProd]
    ring
  rw [this, intervalIntegral.integral_const]
  simp
end

/-! ### Example: the grid of 3 times 3 integer nodes and the segment from (0, 0) to (2, 1) -/

/-- A good segment of the unit grid (also for `C80_potential_partial`). -/
theorem ex_good : GoodSegment 3 3 (fun i => (i : ℝ)) (fun j => (j : ℝ)) [0, 0, 0, 1, 1, 1, 2, 2, 2] [0, 1, 2, 0, 1, 2, 0, 1, 2] (0, 0) (2, 1) 0 0 2 1 := by
  have hq : ∀ i < 2, ∀ j < 2, gridQuad 3 ([0, 0, 0, 1, 1, 1, 2, 2, 2] : List ℝ) [0, 1, 2, 0, 1, 2, 0, 1, 2] i j = zquad (zcell i j) := by
    intro i hi j hj
    funext c
    interval_cases i <;> interval_cases j <;> fin_cases c <;> simp [gridQuad, nodePlace, cellNode, zquad, zcell]
  refine ⟨by norm_num, by norm_num, ⟨?_, ?_⟩, ?_⟩
  · rintro i h0 h1 ⟨h2, h3⟩
    linarith
  · rintro i h0 h1 ⟨h2, h3⟩
    linarith
  · intro i hi j hj
    have hi : i < 2 := hi
    have hj : j < 2 := hj
    have hc : ZConvex (zcell i j) ∧ ZSmall (zcell i j) := by
      interval_cases i <;> interval_cases j <;> exact ⟨by decide, by decide⟩
    rw [hq i hi j hj]
    simpa using clearLine_int hc.1 hc.2 (0, 0) (2, 1) (by norm_num) (by norm_num) (Or.inr (by decide))

/-- The velocity (1 - y, x) and its integrals along the edges. -/
theorem ex_rotation : EdgeIntegrals 3 3 [0, 0, 0, 1, 1, 1, 2, 2, 2] [0, 1, 2, 0, 1, 2, 0, 1, 2] (fun z => (1 - 1 * z.2, 0 + 1 * z.1))
    [1, 0, -1, 1, 0, -1] [0, 0, 1, 1, 2, 2] := by
  refine ⟨by simp, by simp, fun i j hi hj => ?_, fun i j hi hj => ?_⟩
  · rw [lineIntegral_const (e := (1, 0)) (r := 1) (z := 1 - j)]
    · have hi : i < 2 := hi
      interval_cases i <;> interval_cases j <;> simp [xEdge] <;> norm_num
    · have hi : i < 2 := hi
      interval_cases i <;> interval_cases j <;> simp [gridPoint, nodePlace] <;> norm_num
    · have hi : i < 2 := hi
      intro t
      interval_cases i <;> interval_cases j <;> simp [gridPoint, nodePlace, dotProd]
  · rw [lineIntegral_const (e := (0, 1)) (r := 1) (z := i)]
    · have hj : j < 2 := hj
      interval_cases i <;> interval_cases j <;> simp [yEdge]
    · have hj : j < 2 := hj
      interval_cases i <;> interval_cases j <;> simp [gridPoint, nodePlace] <;> norm_num
    · have hj : j < 2 := hj
      intro t
      interval_cases i <;> interval_cases j <;> simp [gridPoint, nodePlace, dotProd]

theorem ex_moved : movedNode noPert 2 ([0, 2] : List ℝ) [0, 1] 0 = (0, 0) ∧ movedNode noPert 2 ([0, 2] : List ℝ) [0, 1] 1 = (2, 1) := by
  constructor <;> simp [movedNode, noPert]

/-- The hypotheses of `C103_rigid` hold; the flow is 2. -/
example (g : Gels ℝ) (hg : GelsContract g) (srt : List ℝ → List ℝ) (hsrt : ∀ l, SortsTo l (srt l)) :
    ∃ d', flowWith noPert g srt [] 3 3 [0, 0, 0, 1, 1, 1, 2, 2, 2] [0, 1, 2, 0, 1, 2, 0, 1, 2] 2 [0, 2] [0, 1] 1
      [1, 0, -1, 1, 0, -1] [0, 0, 1, 1, 2, 2] [7] = .ok d' ∧ d'[0]? = some 2 := by
  obtain ⟨d', e, h⟩ := C103_rigid noPert g hg srt hsrt 3 3 (by norm_num) (by norm_num) (by norm_num) _ _ (by simp) (by simp) 2 (by norm_num)
    [0, 2] [0, 1] (by simp) (by simp) _ _ _ _ _ square_tensor 1 0 1 _ _ ex_rotation [7] (by simp)
    (fun k => if k = 0 then 0 else 2) (fun k => if k = 0 then 0 else 1)
    (by intro k hk; interval_cases k <;> simp [movedNode, noPert])
  refine ⟨d', e, ?_⟩
  rw [h 0 (by norm_num) (0, 0) (2, 1) ex_moved.1.symm ex_moved.2.symm (by simpa using ex_good)]
  norm_num

/-- The hypotheses of `C103_flow` hold; both components vary by 1 over a cell. -/
example (g : Gels ℝ) (hg : GelsContract g) (srt : List ℝ → List ℝ) (hsrt : ∀ l, SortsTo l (srt l)) :
    ∃ d' f, flowWith noPert g srt [] 3 3 [0, 0, 0, 1, 1, 1, 2, 2, 2] [0, 1, 2, 0, 1, 2, 0, 1, 2] 2 [0, 2] [0, 1] 1
      [1, 0, -1, 1, 0, -1] [0, 0, 1, 1, 2, 2] [7] = .ok d' ∧ d'[0]? = some f ∧
      |f - lineIntegral (fun z => (1 - 1 * z.2, 0 + 1 * z.1)) (0, 0) (2, 1)| ≤ 1 * |2 - 0| + 1 * |1 - 0| := by
  have hr : ∀ i < 2, ∀ j < 2, ∀ p ∈ quadRegion (gridQuad 3 ([0, 0, 0, 1, 1, 1, 2, 2, 2] : List ℝ) [0, 1, 2, 0, 1, 2, 0, 1, 2] i j),
      (i ≤ p.1 ∧ p.1 ≤ i + 1) ∧ j ≤ p.2 ∧ p.2 ≤ j + 1 := by
    intro i hi j hj p hp
    have := (tensor_region square_tensor (i := i) (j := j) hi hj (u := p.1) (v := p.2)).1 (by
      have e : (0, 0) + p.1 • ((1, 0) : ℝ × ℝ) + p.2 • ((0, 1) : ℝ × ℝ) = p := by ext <;> simp
      rw [e]; exact hp)
    push_cast at this
    exact this
  obtain ⟨d', e, h⟩ := C103_flow noPert g hg srt hsrt 3 3 (by norm_num) (by norm_num) (by norm_num) _ _ (by simp) (by simp) 2 (by norm_num)
    [0, 2] [0, 1] (by simp) (by simp) _ _ _ _ _ square_tensor _ (by fun_prop) _ _ ex_rotation 1 1
    (by
      intro i hi j hj p hp q hq
      have h1 := (hr i hi j hj p hp).2
      have h2 := (hr i hi j hj q hq).2
      simp only [dotProd]
      rw [abs_le]
      constructor <;> linarith [h1.1, h1.2, h2.1, h2.2])
    (by
      intro i hi j hj p hp q hq
      have h1 := (hr i hi j hj p hp).1
      have h2 := (hr i hi j hj q hq).1
      simp only [dotProd]
      rw [abs_le]
      constructor <;> linarith [h1.1, h1.2, h2.1, h2.2]) [7] (by simp)
    (fun k => if k = 0 then 0 else 2) (fun k => if k = 0 then 0 else 1)
    (by intro k hk; interval_cases k <;> simp [movedNode, noPert])
  have hg0 := ex_good
  rw [← ex_moved.1, ← ex_moved.2] at hg0
  obtain ⟨f, h1, h2⟩ := h 0 (by norm_num) (by simpa using hg0)
  refine ⟨d', f, e, h1, ?_⟩
  rw [ex_moved.1, ex_moved.2] at h2
  simpa using h2

end Sg.Props
