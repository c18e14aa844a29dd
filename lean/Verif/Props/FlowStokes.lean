import Verif.Spec.LoopCirculation
import Verif.Props.FlowMove
import Verif.Props.FlowCirculation
/-
Property C143 for closed lines through any cells of sheared product grids.
`g` is the linear algebra library, `srt` is `std::sort` and `pert` the perturbation of the nodes of the line.
-/
namespace Sg.Props
open Sg Sg.FlowInterp Sg.QuadIntersect Sg.QuadFlows Sg.LinearSolve Sg.Triangulate Sg.FindPoint Sg.QuadLine Sg.Spec Sg.Plane Sg.Move MeasureTheory

theorem along_parts {S R : ℝ → ℝ} {K L : ℝ} (hS : Lip L S) (hR : Lip K R) (ua va ub vb : ℝ) :
    along S R ua va ub vb = S vb * R ub - S va * R ua - along R S va ua vb ub := by
  unfold along
  rw [((hS.line va vb).ac 0 1).integral_mul_deriv_eq_deriv_mul ((hR.line ua ub).ac 0 1)]
  have e : ∀ a b : ℝ, a + 1 * (b - a) = b := fun a b => by ring
  have e' : ∀ a b : ℝ, a + 0 * (b - a) = a := fun a b => by ring
  rw [e, e, e', e']
  congr 1
  exact intervalIntegral.integral_congr fun t _ => mul_comm _ _

theorem along_one {R : ℝ → ℝ} {K : ℝ} (hR : Lip K R) (ua va ub vb : ℝ) : along (fun _ => 1) R ua va ub vb = R ub - R ua := by
  have h1 : Lip 0 fun _ : ℝ => (1 : ℝ) := ⟨le_rfl, fun u u' => by simp⟩
  rw [along_parts h1 hR]
  simp [along]

theorem along_still {G R : ℝ → ℝ} (u va vb : ℝ) : along G R u va u vb = 0 := by simp [along]

theorem along_level {G R : ℝ → ℝ} {K : ℝ} (hR : Lip K R) (ua v ub : ℝ) : along G R ua v ub v = G v * (R ub - R ua) := by
  rw [← along_one hR ua v ub v]
  simp [along]

/-- With the numbers interpolated: the first number, and the differences one by one. -/
theorem along_pl {m : Nat} {Y : Nat → ℝ} (hY : ∀ j < m, Y j < Y (j + 1)) (f : Nat → ℝ) {R : ℝ → ℝ} {K : ℝ} (hR : Lip K R) (ua va ub vb : ℝ) :
    along (piecewiseLinear m Y f) R ua va ub vb = f 0 * (R ub - R ua) + ∑ j ∈ Finset.range m, (f (j + 1) - f j) * along (ramp Y j) R ua va ub vb := by
  have h1 : Lip 0 fun _ : ℝ => (1 : ℝ) := ⟨le_rfl, fun u u' => by simp⟩
  rw [← along_one hR ua va ub vb]
  unfold along piecewiseLinear
  simp only [← intervalIntegral.integral_const_mul]
  rw [← intervalIntegral.integral_finsetSum (fun j hj => ((ramp_lip (hY j (Finset.mem_range.mp hj))).term hR ua va ub vb).const_mul _),
    ← intervalIntegral.integral_add ((h1.term hR ua va ub vb).const_mul _)]
  · refine intervalIntegral.integral_congr fun t _ => ?_
    simp only [add_mul, Finset.sum_mul, mul_assoc, one_mul]
  · have := IntervalIntegrable.sum (Finset.range m)
      (fun j hj => ((ramp_lip (hY j (Finset.mem_range.mp hj))).term hR ua va ub vb).const_mul (f (j + 1) - f j))
    have hs : (fun t : ℝ => ∑ j ∈ Finset.range m, (f (j + 1) - f j) * (ramp Y j (va + t * (vb - va)) * deriv (fun t : ℝ => R (ua + t * (ub - ua))) t)) =
        ∑ j ∈ Finset.range m, fun t : ℝ => (f (j + 1) - f j) * (ramp Y j (va + t * (vb - va)) * deriv (fun t : ℝ => R (ua + t * (ub - ua))) t) := by
      funext t; simp
    rw [hs]
    exact this

section
variable {n0 n1 : Nat} {X Y : Nat → ℝ}

/-- A segment: what belongs to its ends, and the circulations of the cells. -/
theorem along_circulation (hX : ∀ i, i < n0 - 1 → X i < X (i + 1)) (hY : ∀ j, j < n1 - 1 → Y j < Y (j + 1)) (x y : List ℝ) :
    ∃ T : ℝ → ℝ → ℝ, ∀ ua va ub vb, ∑ i ∈ Finset.range (n0 - 1), along (colData n1 Y x i) (ramp X i) ua va ub vb +
        ∑ j ∈ Finset.range (n1 - 1), along (rowData n0 n1 X y j) (ramp Y j) va ua vb ub =
      T ub vb - T ua va + ∑ i ∈ Finset.range (n0 - 1), ∑ j ∈ Finset.range (n1 - 1), cellCirculation n1 x y i j * along (ramp X i) (ramp Y j) va ua vb ub := by
  refine ⟨fun u v => ∑ i ∈ Finset.range (n0 - 1), x.getD (xEdge n1 i 0) 0 * ramp X i u + ∑ j ∈ Finset.range (n1 - 1), y.getD (yEdge n1 0 j) 0 * ramp Y j v +
    ∑ i ∈ Finset.range (n0 - 1), ∑ j ∈ Finset.range (n1 - 1), (x.getD (xEdge n1 i (j + 1)) 0 - x.getD (xEdge n1 i j) 0) * (ramp Y j v * ramp X i u), ?_⟩
  intro ua va ub vb
  have c1 : ∀ i ∈ Finset.range (n0 - 1), along (colData n1 Y x i) (ramp X i) ua va ub vb =
      x.getD (xEdge n1 i 0) 0 * (ramp X i ub - ramp X i ua) + ∑ j ∈ Finset.range (n1 - 1), (x.getD (xEdge n1 i (j + 1)) 0 - x.getD (xEdge n1 i j) 0) *
        (ramp Y j vb * ramp X i ub - ramp Y j va * ramp X i ua - along (ramp X i) (ramp Y j) va ua vb ub) := by
    intro i hi
    have hr := ramp_lip (hX i (Finset.mem_range.mp hi))
    rw [colData, along_pl hY _ hr]
    congr 1
    refine Finset.sum_congr rfl fun j hj => ?_
    rw [along_parts (ramp_lip (hY j (Finset.mem_range.mp hj))) hr]
  have c2 : ∀ j ∈ Finset.range (n1 - 1), along (rowData n0 n1 X y j) (ramp Y j) va ua vb ub =
      y.getD (yEdge n1 0 j) 0 * (ramp Y j vb - ramp Y j va) + ∑ i ∈ Finset.range (n0 - 1), (y.getD (yEdge n1 (i + 1) j) 0 - y.getD (yEdge n1 i j) 0) *
        along (ramp X i) (ramp Y j) va ua vb ub := by
    intro j hj
    rw [rowData, along_pl hX _ (ramp_lip (hY j (Finset.mem_range.mp hj)))]
  rw [Finset.sum_congr rfl c1, Finset.sum_congr rfl c2, Finset.sum_add_distrib, Finset.sum_add_distrib,
    Finset.sum_comm (s := Finset.range (n1 - 1)) (t := Finset.range (n0 - 1))]
  have e1 : ∀ (m : Nat) (f a b : Nat → ℝ), ∑ i ∈ Finset.range m, f i * (a i - b i) = ∑ i ∈ Finset.range m, f i * a i - ∑ i ∈ Finset.range m, f i * b i := by
    intro m f a b
    rw [← Finset.sum_sub_distrib]
    exact Finset.sum_congr rfl fun i _ => mul_sub _ _ _
  rw [e1, e1]
  have e2 : ∑ i ∈ Finset.range (n0 - 1), ∑ j ∈ Finset.range (n1 - 1), cellCirculation n1 x y i j * along (ramp X i) (ramp Y j) va ua vb ub =
      ∑ i ∈ Finset.range (n0 - 1), ∑ j ∈ Finset.range (n1 - 1), (y.getD (yEdge n1 (i + 1) j) 0 - y.getD (yEdge n1 i j) 0) * along (ramp X i) (ramp Y j) va ua vb ub -
      ∑ i ∈ Finset.range (n0 - 1), ∑ j ∈ Finset.range (n1 - 1), (x.getD (xEdge n1 i (j + 1)) 0 - x.getD (xEdge n1 i j) 0) * along (ramp X i) (ramp Y j) va ua vb ub := by
    rw [← Finset.sum_sub_distrib]
    refine Finset.sum_congr rfl fun i _ => ?_
    rw [← Finset.sum_sub_distrib]
    refine Finset.sum_congr rfl fun j _ => ?_
    unfold cellCirculation
    ring
  have e3 : ∑ i ∈ Finset.range (n0 - 1), ∑ j ∈ Finset.range (n1 - 1), (x.getD (xEdge n1 i (j + 1)) 0 - x.getD (xEdge n1 i j) 0) *
        (ramp Y j vb * ramp X i ub - ramp Y j va * ramp X i ua - along (ramp X i) (ramp Y j) va ua vb ub) =
      ∑ i ∈ Finset.range (n0 - 1), ∑ j ∈ Finset.range (n1 - 1), (x.getD (xEdge n1 i (j + 1)) 0 - x.getD (xEdge n1 i j) 0) * (ramp Y j vb * ramp X i ub) -
      ∑ i ∈ Finset.range (n0 - 1), ∑ j ∈ Finset.range (n1 - 1), (x.getD (xEdge n1 i (j + 1)) 0 - x.getD (xEdge n1 i j) 0) * (ramp Y j va * ramp X i ua) -
      ∑ i ∈ Finset.range (n0 - 1), ∑ j ∈ Finset.range (n1 - 1), (x.getD (xEdge n1 i (j + 1)) 0 - x.getD (xEdge n1 i j) 0) * along (ramp X i) (ramp Y j) va ua vb ub := by
    rw [← Finset.sum_sub_distrib, ← Finset.sum_sub_distrib]
    refine Finset.sum_congr rfl fun i _ => ?_
    rw [← Finset.sum_sub_distrib, ← Finset.sum_sub_distrib]
    refine Finset.sum_congr rfl fun j _ => ?_
    ring
  rw [e2, e3]
  ring

/-- **C143**, in real numbers, on a sheared product grid, any edge data: the total flow of a closed line (as stored) is the sum over the cells of the circulation of
the data round the cell times the share of the cell that the line encloses.  All segments are to be good (in the grid, not along a grid line inside it, clear of
the tolerance). -/
theorem C143_grid (pert : Nat → Nat → Nat → ℝ) (g : Gels ℝ) (hg : GelsContract g) (srt : List ℝ → List ℝ)
    (hsrt : ∀ l, SortsTo l (srt l)) (n0 n1 : Nat) (h0 : 2 ≤ n0) (h1 : 2 ≤ n1) (hf : n0 * n1 ≤ 1073741824) (xs ys : List ℝ)
    (hx : n0 * n1 ≤ xs.length) (hy : n0 * n1 ≤ ys.length) (X Y : Nat → ℝ) (c e0 e1 : ℝ × ℝ) (hT : TensorGrid n0 n1 X Y c e0 e1 xs ys)
    (x y : List ℝ) (hxl : (n0 - 1) * n1 ≤ x.length) (hyl : n0 * (n1 - 1) ≤ y.length)
    (n : Nat) (hn : 1 ≤ n) (us vs : List ℝ) (hu : n ≤ us.length) (hv : n ≤ vs.length) (U V : Nat → ℝ)
    (hUV : ∀ k < n, movedNode pert n us vs k = c + U k • e0 + V k • e1)
    (hgood : ∀ k < n - 1, GoodSegment n0 n1 X Y xs ys (movedNode pert n us vs k) (movedNode pert n us vs (k + 1)) (U k) (V k) (U (k + 1)) (V (k + 1)))
    (hclosed : movedNode pert n us vs (n - 1) = movedNode pert n us vs 0) (d : List ℝ) (hd : n - 1 ≤ d.length) :
    ∃ d', flowWith pert g srt [] n0 n1 xs ys n us vs 1 x y d = .ok d' ∧
      (d'.take (n - 1)).sum = ∑ i ∈ Finset.range (n0 - 1), ∑ j ∈ Finset.range (n1 - 1), cellCirculation n1 x y i j * enclosedShare X Y U V (n - 1) i j := by
  have hX : ∀ i, i < n0 - 1 → X i < X (i + 1) := fun i hi => hT.incX i (by omega)
  have hY : ∀ j, j < n1 - 1 → Y j < Y (j + 1) := fun j hj => hT.incY j (by omega)
  obtain ⟨d', e, h⟩ := C79_integral_partial pert g hg srt hsrt n0 n1 h0 h1 hf xs ys hx hy n hn us vs hu hv
    (fun i hi j hj => tensor_parallelogram (i := i) (j := j) hT hi hj) x y hxl hyl d hd
  refine ⟨d', e, ?_⟩
  obtain ⟨T, hTT⟩ := along_circulation hX hY x y
  have hk : ∀ k < n - 1, d'[k]? = some (T (U (k + 1)) (V (k + 1)) - T (U k) (V k) + ∑ i ∈ Finset.range (n0 - 1), ∑ j ∈ Finset.range (n1 - 1),
      cellCirculation n1 x y i j * along (ramp X i) (ramp Y j) (V k) (U k) (V (k + 1)) (U (k + 1))) := by
    intro k hk
    have gk := hgood k hk
    obtain ⟨met, sum⟩ := sum_fields_along hT h0 h1 x y gk.ina gk.inb gk.along (hUV k (by omega)) (hUV (k + 1) (by omega))
    rw [h k hk _ _ rfl rfl met gk.clear, sum, hTT]
  have hU : U (n - 1) = U 0 ∧ V (n - 1) = V 0 := by
    rw [hUV (n - 1) (by omega), hUV 0 (by omega)] at hclosed
    have a := uv_point (c := c) hT.det (U (n - 1)) (V (n - 1))
    rw [hclosed] at a
    have b := uv_point (c := c) hT.det (U 0) (V 0)
    exact ⟨a.1.symm.trans b.1, a.2.symm.trans b.2⟩
  rw [take_sum hk, Finset.sum_add_distrib, Finset.sum_range_sub (fun k => T (U k) (V k)), hU.1, hU.2, sub_self, zero_add, Finset.sum_comm]
  refine Finset.sum_congr rfl fun i _ => ?_
  rw [Finset.sum_comm]
  refine Finset.sum_congr rfl fun j _ => ?_
  rw [← Finset.mul_sum]
  rfl

/-- The share that a rectangle along the axes encloses is the product of the shares of its sides. -/
theorem C143_rectangle {i j : Nat} (hY : Y j < Y (j + 1)) (u0 u1 v0 v1 : ℝ) (U V : Nat → ℝ)
    (hU : U 0 = u0 ∧ U 1 = u1 ∧ U 2 = u1 ∧ U 3 = u0 ∧ U 4 = u0) (hV : V 0 = v0 ∧ V 1 = v0 ∧ V 2 = v1 ∧ V 3 = v1 ∧ V 4 = v0) :
    enclosedShare X Y U V 4 i j = (ramp X i u1 - ramp X i u0) * (ramp Y j v1 - ramp Y j v0) := by
  have hr := ramp_lip hY
  have e : enclosedShare X Y U V 4 i j = ∑ k ∈ Finset.range 4, along (ramp X i) (ramp Y j) (V k) (U k) (V (k + 1)) (U (k + 1)) := rfl
  rw [e]
  simp only [Finset.sum_range_succ, Finset.sum_range_zero, zero_add, Nat.reduceAdd, hU.1, hU.2.1, hU.2.2.1, hU.2.2.2.1, hU.2.2.2.2, hV.1, hV.2.1, hV.2.2.1,
    hV.2.2.2.1, hV.2.2.2.2]
  rw [along_still, along_level hr, along_still, along_level hr]
  ring
end

/-! ### A rectangle over four cells -/

theorem four_tensor : TensorGrid 3 3 (fun i => 4 * (i : ℝ)) (fun j => 4 * (j : ℝ)) (0, 0) (1, 0) (0, 1)
    [0, 0, 0, 4, 4, 4, 8, 8, 8] [0, 4, 8, 0, 4, 8, 0, 4, 8] := by
  refine ⟨fun i _ => by push_cast; linarith, fun i _ => by push_cast; linarith, by norm_num, ?_⟩
  intro i j hi hj
  interval_cases i <;> interval_cases j <;> simp [nodePlace] <;> norm_num

/-- The cells of the grid with nodes at 0, 4 and 8. -/
def zFour (i j : Nat) (c : Fin 4) : ℤ × ℤ := (4 * ((cellNode i j c).1 : ℤ), 4 * ((cellNode i j c).2 : ℤ))

theorem four_cell : ∀ i < 2, ∀ j < 2, gridQuad 3 ([0, 0, 0, 4, 4, 4, 8, 8, 8] : List ℝ) [0, 4, 8, 0, 4, 8, 0, 4, 8] i j = zquad (zFour i j) := by
  intro i hi j hj
  funext c
  interval_cases i <;> interval_cases j <;> fin_cases c <;> simp [gridQuad, nodePlace, cellNode, zquad, zFour] <;> norm_num

theorem four_clear (a b : ℤ × ℤ) (ha : 0 ≤ a.1 ∧ a.1 ≤ 1000 ∧ 0 ≤ a.2 ∧ a.2 ≤ 1000) (hb : 0 ≤ b.1 ∧ b.1 ≤ 1000 ∧ 0 ≤ b.2 ∧ b.2 ≤ 1000) (hab : a ≠ b) :
    ∀ i < 3 - 1, ∀ j < 3 - 1, ClearLine (gridQuad 3 ([0, 0, 0, 4, 4, 4, 8, 8, 8] : List ℝ) [0, 4, 8, 0, 4, 8, 0, 4, 8] i j) (a.1, a.2) (b.1, b.2) := by
  intro i hi j hj
  have hi : i < 2 := hi
  have hj : j < 2 := hj
  have hc : ZConvex (zFour i j) ∧ ZSmall (zFour i j) := by
    interval_cases i <;> interval_cases j <;> exact ⟨by decide, by decide⟩
  rw [four_cell i hi j hj]
  exact clearLine_int hc.1 hc.2 a b ha hb (Or.inr hab)

theorem four_good (a b : ℤ × ℤ) (ha : (0 ≤ a.1 ∧ a.1 ≤ 8) ∧ 0 ≤ a.2 ∧ a.2 ≤ 8) (hb : (0 ≤ b.1 ∧ b.1 ≤ 8) ∧ 0 ≤ b.2 ∧ b.2 ≤ 8) (hab : a ≠ b)
    (h4 : a.1 ≠ 4 ∧ a.2 ≠ 4) : GoodSegment 3 3 (fun i => 4 * (i : ℝ)) (fun j => 4 * (j : ℝ)) [0, 0, 0, 4, 4, 4, 8, 8, 8] [0, 4, 8, 0, 4, 8, 0, 4, 8]
      ((a.1 : ℝ), (a.2 : ℝ)) ((b.1 : ℝ), (b.2 : ℝ)) a.1 a.2 b.1 b.2 := by
  have cast : ∀ z : ℤ, 0 ≤ z ∧ z ≤ 8 → 4 * ((0 : ℕ) : ℝ) ≤ (z : ℝ) ∧ (z : ℝ) ≤ 4 * ((3 - 1 : ℕ) : ℝ) := by
    intro z hz
    constructor
    · have : ((0 : ℤ) : ℝ) ≤ z := by exact_mod_cast hz.1
      simpa using this
    · have : (z : ℝ) ≤ ((8 : ℤ) : ℝ) := by exact_mod_cast hz.2
      norm_num at this ⊢
      exact this
  have inner : ∀ z : ℤ, z ≠ 4 → ∀ i : Nat, 0 < i → i < 3 - 1 → (z : ℝ) ≠ 4 * (i : ℝ) := by
    intro z hz i h0 h1 e
    have : i = 1 := by omega
    subst this
    exact hz (by exact_mod_cast (by simpa using e : (z : ℝ) = 4))
  exact ⟨⟨cast _ ha.1, cast _ ha.2⟩, ⟨cast _ hb.1, cast _ hb.2⟩,
    ⟨fun i h0 h1 h => inner _ h4.1 i h0 h1 h.1, fun j h0 h1 h => inner _ h4.2 j h0 h1 h.1⟩, four_clear a b (by omega) (by omega) hab⟩

/-- The rectangle from (1, 2) to (6, 7) over the four square cells of side 4, any data: it encloses 3/4 and 1/2 of the columns, 1/2 and 3/4 of the rows. -/
example (g : Gels ℝ) (hg : GelsContract g) (srt : List ℝ → List ℝ) (hsrt : ∀ l, SortsTo l (srt l)) (x y : List ℝ) (hxl : 6 ≤ x.length) (hyl : 6 ≤ y.length) :
    ∃ d', flowWith noPert g srt [] 3 3 [0, 0, 0, 4, 4, 4, 8, 8, 8] [0, 4, 8, 0, 4, 8, 0, 4, 8] 5 [1, 6, 6, 1, 1] [2, 2, 7, 7, 2] 1 x y [7, 7, 7, 7] = .ok d' ∧
      (d'.take 4).sum = cellCirculation 3 x y 0 0 * (3 / 8) + cellCirculation 3 x y 0 1 * (9 / 16) + (cellCirculation 3 x y 1 0 * (1 / 4) +
        cellCirculation 3 x y 1 1 * (3 / 8)) := by
  have hm : ∀ k, movedNode noPert 5 ([1, 6, 6, 1, 1] : List ℝ) [2, 2, 7, 7, 2] k =
      (([1, 6, 6, 1, 1] : List ℝ).getD k 0, ([2, 2, 7, 7, 2] : List ℝ).getD k 0) := by
    intro k; simp [movedNode, noPert]
  obtain ⟨d', e, h⟩ := C143_grid noPert g hg srt hsrt 3 3 (by norm_num) (by norm_num) (by norm_num) _ _ (by simp) (by simp) _ _ _ _ _ four_tensor x y hxl hyl
    5 (by norm_num) [1, 6, 6, 1, 1] [2, 2, 7, 7, 2] (by simp) (by simp) (fun k => ([1, 6, 6, 1, 1] : List ℝ).getD k 0) (fun k => ([2, 2, 7, 7, 2] : List ℝ).getD k 0)
    (by intro k _; rw [hm]; simp)
    (by
      intro k hk
      rw [hm, hm]
      have hk : k < 4 := hk
      interval_cases k
      · simpa using four_good (1, 2) (6, 2) (by decide) (by decide) (by decide) (by decide)
      · simpa using four_good (6, 2) (6, 7) (by decide) (by decide) (by decide) (by decide)
      · simpa using four_good (6, 7) (1, 7) (by decide) (by decide) (by decide) (by decide)
      · simpa using four_good (1, 7) (1, 2) (by decide) (by decide) (by decide) (by decide))
    (by rw [hm, hm]; simp) [7, 7, 7, 7] (by simp)
  refine ⟨d', e, h.trans ?_⟩
  have hY : ∀ j : Nat, (fun j : Nat => 4 * (j : ℝ)) j < (fun j : Nat => 4 * (j : ℝ)) (j + 1) := fun j => by push_cast; linarith
  have hs : ∀ i j : Nat, enclosedShare (fun i => 4 * (i : ℝ)) (fun j => 4 * (j : ℝ)) (fun k => ([1, 6, 6, 1, 1] : List ℝ).getD k 0)
      (fun k => ([2, 2, 7, 7, 2] : List ℝ).getD k 0) (5 - 1) i j = _ := fun i j => C143_rectangle (hY j) 1 6 2 7 _ _ (by simp) (by simp)
  have r : ∀ i : Nat, ramp (fun i : Nat => 4 * (i : ℝ)) i = fun u : ℝ => max (0 : ℝ) (min 1 ((u - 4 * (i : ℝ)) / 4)) := by
    intro i
    funext u
    unfold ramp
    congr 3
    push_cast
    ring
  simp only [hs, r, Finset.sum_range_succ, Finset.sum_range_zero, zero_add, Nat.reduceSub]
  norm_num [max_def, min_def]

end Sg.Props
