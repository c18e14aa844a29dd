import Verif.Spec.Stretched
import Verif.Proof.Tensor
import Verif.Proof.FindPointExact
import Verif.Proof.NodeInterp
namespace Sg.Stretched
open Sg Sg.FindPoint Sg.LinearSolve Sg.Spec Sg.Props

/-! ### One axis -/

theorem clamp_sum (m : Nat) (u : ℝ) (h0 : 0 ≤ u) (h1 : u ≤ m) :
    ∑ k ∈ Finset.range m, ramp (fun k => (k : ℝ)) k u = u := by
  have key : ∀ m : Nat, ∑ k ∈ Finset.range m, ramp (fun k => (k : ℝ)) k u = min u m := by
    intro m
    induction m with
    | zero => simp [h0]
    | succ m ih =>
      rw [Finset.sum_range_succ, ih]
      unfold ramp
      push_cast
      have e : (u - (m : ℝ)) / ((m : ℝ) + 1 - m) = u - m := by
        rw [add_sub_cancel_left, div_one]
      rw [e]
      rcases le_total u m with h | h
      · rw [min_eq_left h, min_eq_left (by linarith : u ≤ (m : ℝ) + 1), min_eq_right (by linarith : u - m ≤ 1),
          max_eq_left (by linarith)]
        ring
      · rw [min_eq_right h]
        rcases le_total u (m + 1) with h' | h'
        · rw [min_eq_left h', min_eq_right (by linarith : u - m ≤ 1), max_eq_right (by linarith)]; ring
        · rw [min_eq_right h', min_eq_left (by linarith : 1 ≤ u - m), max_eq_right (by linarith)]
  rw [key, min_eq_left h1]

theorem ramp_mono (k : Nat) {u v : ℝ} (h : u ≤ v) : ramp (fun k => (k : ℝ)) k u ≤ ramp (fun k => (k : ℝ)) k v := by
  unfold ramp
  have : (u - (k : ℝ)) / (((k + 1 : Nat) : ℝ) - k) ≤ (v - (k : ℝ)) / (((k + 1 : Nat) : ℝ) - k) := by
    push_cast
    rw [add_sub_cancel_left, div_one, div_one]
    linarith
  exact max_le_max le_rfl (min_le_min le_rfl this)

/-- Differences of places are between `w` and `r w` times the differences of the indices. -/
theorem place_diff {m : Nat} {X : Nat → ℝ} {w r : ℝ} (hm : 1 ≤ m)
    (hw : ∀ k, k + 1 < m → w ≤ X (k + 1) - X k ∧ X (k + 1) - X k ≤ r * w) {u v : ℝ} (h0 : 0 ≤ u) (huv : u ≤ v) (h1 : v ≤ (m : ℝ) - 1) :
    w * (v - u) ≤ axisPlace m X v - axisPlace m X u ∧ axisPlace m X v - axisPlace m X u ≤ r * w * (v - u) := by
  have e : ((m - 1 : Nat) : ℝ) = (m : ℝ) - 1 := by push_cast [Nat.cast_sub hm]; ring
  have su := clamp_sum (m - 1) u h0 (by rw [e]; linarith)
  have sv := clamp_sum (m - 1) v (h0.trans huv) (by rw [e]; linarith)
  have hd : axisPlace m X v - axisPlace m X u =
      ∑ k ∈ Finset.range (m - 1), (X (k + 1) - X k) * (ramp (fun k => (k : ℝ)) k v - ramp (fun k => (k : ℝ)) k u) := by
    unfold axisPlace piecewiseLinear
    rw [add_sub_add_left_eq_sub, ← Finset.sum_sub_distrib]
    exact Finset.sum_congr rfl fun k _ => by ring
  have hvu : v - u = ∑ k ∈ Finset.range (m - 1), (ramp (fun k => (k : ℝ)) k v - ramp (fun k => (k : ℝ)) k u) := by
    rw [Finset.sum_sub_distrib, su, sv]
  rw [hd, hvu, Finset.mul_sum, Finset.mul_sum]
  constructor <;> refine Finset.sum_le_sum fun k hk => ?_ <;>
    obtain ⟨a, b⟩ := hw k (by have := Finset.mem_range.1 hk; omega) <;>
    exact mul_le_mul_of_nonneg_right (by assumption) (sub_nonneg.2 (ramp_mono k huv))

/-- A quotient `s` between `w` and `r w` for each pair of indices. -/
theorem place_slope {m : Nat} {X : Nat → ℝ} {w r : ℝ} (hm : 1 ≤ m)
    (hw : ∀ k, k + 1 < m → w ≤ X (k + 1) - X k ∧ X (k + 1) - X k ≤ r * w) (hrw : w ≤ r * w) {u v : ℝ} (h0 : 0 ≤ u) (h1 : u ≤ (m : ℝ) - 1)
    (h2 : 0 ≤ v) (h3 : v ≤ (m : ℝ) - 1) :
    ∃ s, w ≤ s ∧ s ≤ r * w ∧ axisPlace m X v - axisPlace m X u = s * (v - u) := by
  rcases lt_trichotomy u v with h | h | h
  · obtain ⟨a, b⟩ := place_diff hm hw h0 h.le h3
    have hp := sub_pos.2 h
    exact ⟨(axisPlace m X v - axisPlace m X u) / (v - u), (le_div_iff₀ hp).2 a, (div_le_iff₀ hp).2 b,
      (div_mul_cancel₀ _ hp.ne').symm⟩
  · subst h
    exact ⟨w, le_rfl, hrw, by ring⟩
  · obtain ⟨a, b⟩ := place_diff hm hw h2 h.le h1
    have hp := sub_pos.2 h
    refine ⟨(axisPlace m X u - axisPlace m X v) / (u - v), (le_div_iff₀ hp).2 a, (div_le_iff₀ hp).2 b, ?_⟩
    have := div_mul_cancel₀ (axisPlace m X u - axisPlace m X v) hp.ne'
    linarith

theorem axisPlace_cell {m : Nat} (X : Nat → ℝ) {k : Nat} (hk : k + 1 < m) {u : ℝ} (h0 : (k : ℝ) ≤ u) (h1 : u ≤ k + 1) :
    axisPlace m X u = X k + (u - k) * (X (k + 1) - X k) := by
  have := FlowInterp.pl_cell (m := m - 1) (X := fun k => (k : ℝ)) (fun i _ => by push_cast; linarith) X (i := k) (by omega)
    (t := u - k) (by linarith) (by linarith)
  push_cast at this
  unfold axisPlace
  have e : (k : ℝ) + (u - k) * ((k : ℝ) + 1 - k) = u := by ring
  rw [e] at this
  rw [this]; ring

/-- The new index of a step along one axis. -/
theorem step_contract {x t s J w r : ℝ} (hw : 0 < w) (hr : 1 ≤ r) (hs : w ≤ s) (hs' : s ≤ r * w) (hJ : w ≤ J) (hJ' : J ≤ r * w) :
    |x + s * (t - x) / J - t| ≤ (r - 1) * |x - t| := by
  have hJ0 : 0 < J := hw.trans_le hJ
  have e : x + s * (t - x) / J - t = (1 - s / J) * (x - t) := by
    field_simp
    ring
  rw [e, abs_mul]
  refine mul_le_mul_of_nonneg_right ?_ (abs_nonneg _)
  have h1 : s / J ≤ r := by rw [div_le_iff₀ hJ0]; nlinarith
  have h2 : 2 - r ≤ s / J := by
    rw [le_div_iff₀ hJ0]
    rcases le_total r 2 with h | h
    · nlinarith [mul_nonneg (sub_nonneg.2 h) (sub_nonneg.2 hJ'), mul_nonneg hw.le (sq_nonneg (r - 1))]
    · nlinarith
  rw [abs_le]
  constructor <;> linarith

/-- Bringing an index back to the axis does not move it away from a place on the axis. -/
theorem truncate_contract {m : Nat} (hm : 2 ≤ m) (x t : ℝ) (h0 : 0 ≤ t) (h1 : t ≤ (m : ℝ) - 1) :
    |truncateIndex 0 m x - t| ≤ |x - t| := by
  have e : ((m - 1 : Nat) : ℝ) = (m : ℝ) - 1 := by push_cast [Nat.cast_sub (show 1 ≤ m by omega)]; ring
  unfold truncateIndex
  dsimp only
  rw [if_neg (show ¬ ((0 : ℝ) ≠ 0) by simp), e]
  split_ifs with h2 h3 h4
  · linarith
  · rw [abs_of_nonpos (by linarith), abs_of_neg (by linarith)]; linarith
  · rw [abs_of_nonneg (by linarith), abs_of_pos (by linarith)]; linarith
  · exact le_rfl

/-! ### One step -/

section
variable {n : Nat} {dims : Fin n → Nat} {r : ℝ} {X : Fin n → Nat → ℝ} {c : Fin n → ℝ} {A : Matrix (Fin n) (Fin n) ℝ}
  {coords : Fin n → Nat → ℝ}

/-- The slope along axis `j` that the code uses. -/
noncomputable def slope (dims : Fin n → Nat) (X : Fin n → Nat → ℝ) (x : Fin n → ℝ) (j : Fin n) : ℝ :=
  (axisPlace (dims j) (X j) (indsHi dims x j j) - axisPlace (dims j) (X j) (indsLo x j j)) / (indsHi dims x j j - indsLo x j j)

/-- The indices after one step. -/
noncomputable def newton (dims : Fin n → Nat) (X : Fin n → Nat → ℝ) (t x : Fin n → ℝ) : Fin n → ℝ := fun j =>
  truncateIndex 0 (dims j) (x j + (axisPlace (dims j) (X j) (t j) - axisPlace (dims j) (X j) (x j)) / slope dims X x j)

theorem interp_cell_affine (hd : GoodDims dims) (x : Fin n → ℝ) (hx : InGrid dims x) (a0 : ℝ) (a : Fin n → ℝ) (field : List ℝ)
    (hlen : field.length = ∏ i, dims i)
    (hf : ∀ m, IsCorner dims x m → field[rowMajor dims m]? = some (a0 + ∑ j, a j * (m j : ℝ))) :
    interp dims x field = .ok (a0 + ∑ j, a j * x j) := by
  rw [← sum_affine]
  refine C30_multilinear_exact dims hd x hx _ field hlen fun m hm => ?_
  rw [sum_affine]
  exact hf m hm

theorem interp_stretched (hd : GoodDims dims) (h : StretchedGrid dims r X c A coords) (x : Fin n → ℝ) (hx : InGrid dims x)
    (i : Fin n) (field : List ℝ) (hlen : field.length = ∏ k, dims k)
    (hf : ∀ m, (∀ i, m i < dims i) → field[rowMajor dims m]? = some (coords i (rowMajor dims m))) :
    interp dims x field = .ok (stretchedPlace dims X c A x i) := by
  have hb := fun j => cellLo_bounds dims hd x hx j
  have split : ∀ y : Fin n → ℝ, (c i + ∑ j, A i j * (X j (cellLo dims x j) - (cellLo dims x j : ℝ) *
        (X j (cellLo dims x j + 1) - X j (cellLo dims x j)))) +
        ∑ j, A i j * (X j (cellLo dims x j + 1) - X j (cellLo dims x j)) * y j =
      c i + ∑ j, A i j * (X j (cellLo dims x j) + (y j - cellLo dims x j) * (X j (cellLo dims x j + 1) - X j (cellLo dims x j))) := by
    intro y
    rw [add_assoc, ← Finset.sum_add_distrib]
    congr 1
    exact Finset.sum_congr rfl fun j _ => by ring
  rw [interp_cell_affine hd x hx (a := fun j => A i j * (X j (cellLo dims x j + 1) - X j (cellLo dims x j))) (field := field) (hlen := hlen)
    (a0 := c i + ∑ j, A i j * (X j (cellLo dims x j) - (cellLo dims x j : ℝ) * (X j (cellLo dims x j + 1) - X j (cellLo dims x j))))]
  · rw [split]
    congr 1
    unfold stretchedPlace
    congr 1
    refine Finset.sum_congr rfl fun j _ => ?_
    rw [axisPlace_cell (X j) (show cellLo dims x j + 1 < dims j by have := (hb j).2.2; omega) (hb j).1 (hb j).2.1]
  · intro m hm
    have hlt : ∀ k, m k < dims k := fun k => by
      have := (hb k).2.2
      rcases hm k with h | h <;> omega
    rw [hf m hlt, h.node m hlt, split]
    congr 2
    refine Finset.sum_congr rfl fun j _ => ?_
    rcases hm j with h | h
    · rw [h]; ring
    · rw [h]; push_cast; ring

theorem slope_bounds (hd : GoodDims dims) (x : Fin n → ℝ) (hx : InGrid dims x) (j : Fin n) {w : ℝ} (hrw : w ≤ r * w)
    (hw : ∀ k, k + 1 < dims j → w ≤ X j (k + 1) - X j k ∧ X j (k + 1) - X j k ≤ r * w) :
    w ≤ slope dims X x j ∧ slope dims X x j ≤ r * w := by
  have hlt := hi_sub_lo dims hd x hx j
  obtain ⟨a0, a1⟩ := indsHi_inGrid dims hd x hx j j
  obtain ⟨b0, b1⟩ := indsLo_inGrid dims x hx j j
  obtain ⟨s, s1, s2, s3⟩ := place_slope (m := dims j) (by have := (hd j).1; omega) hw hrw b0 b1 a0 a1
  have : slope dims X x j = s := by
    unfold slope
    rw [s3, mul_div_assoc, div_self (sub_ne_zero.2 hlt.ne'), mul_one]
  rw [this]
  exact ⟨s1, s2⟩

theorem newton_inGrid (hd : GoodDims dims) (t x : Fin n → ℝ) : InGrid dims (newton dims X t x) := fun j =>
  truncate_inGrid 0 (dims j) (hd j).1 _

theorem newton_contract (hr : 1 ≤ r) (hd : GoodDims dims) (h : StretchedGrid dims r X c A coords) (t x : Fin n → ℝ) (ht : InGrid dims t)
    (hx : InGrid dims x) (j : Fin n) : |newton dims X t x j - t j| ≤ (r - 1) * |x j - t j| := by
  obtain ⟨w, hw0, hw⟩ := h.width j
  have hrw : w ≤ r * w := by nlinarith
  refine (truncate_contract (hd j).1 _ (t j) (ht j).1 (ht j).2).trans ?_
  obtain ⟨s, s1, s2, s3⟩ := place_slope (m := dims j) (by have := (hd j).1; omega) hw hrw (hx j).1 (hx j).2 (ht j).1 (ht j).2
  obtain ⟨j1, j2⟩ := slope_bounds hd x hx j hrw hw
  rw [s3]
  exact step_contract hw0 hr s1 s2 j1 j2

/-! ### Distances -/

theorem sum_sq_perp (hp : Perpendicular A) (v : Fin n → ℝ) :
    ∑ i, (∑ j, A i j * v j) ^ 2 = ∑ j, (∑ i, A i j ^ 2) * v j ^ 2 := by
  have h1 : ∀ i, (∑ j, A i j * v j) ^ 2 = ∑ j, ∑ k, (A i j * A i k) * (v j * v k) := by
    intro i
    rw [sq, Finset.sum_mul_sum]
    exact Finset.sum_congr rfl fun j _ => Finset.sum_congr rfl fun k _ => by ring
  simp only [h1]
  rw [Finset.sum_comm]
  refine Finset.sum_congr rfl fun j _ => ?_
  rw [Finset.sum_comm]
  have h2 : ∀ k, ∑ i, (A i j * A i k) * (v j * v k) = (∑ i, A i j * A i k) * (v j * v k) := fun k => by rw [Finset.sum_mul]
  simp only [h2]
  rw [Finset.sum_eq_single j]
  · congr 1
    · exact Finset.sum_congr rfl fun i _ => by ring
    · ring
  · intro k _ hk
    rw [hp j k (Ne.symm hk), zero_mul]
  · intro h; exact absurd (Finset.mem_univ _) h

theorem place_sub (x t : Fin n → ℝ) (i : Fin n) : stretchedPlace dims X c A x i - stretchedPlace dims X c A t i =
    ∑ j, A i j * (axisPlace (dims j) (X j) (x j) - axisPlace (dims j) (X j) (t j)) := by
  unfold stretchedPlace
  rw [add_sub_add_left_eq_sub, ← Finset.sum_sub_distrib]
  exact Finset.sum_congr rfl fun j _ => by ring

/-- Indices that are `q` times closer give places that are at least `1 / (r q)` times closer. -/
theorem distance_le (hr : 1 ≤ r) (hd : GoodDims dims) (h : StretchedGrid dims r X c A coords) (hp : Perpendicular A) (q : ℝ) (hq : 0 ≤ q)
    (t x y : Fin n → ℝ) (ht : InGrid dims t) (hx : InGrid dims x) (hy : InGrid dims y) (hxy : ∀ j, |y j - t j| ≤ q * |x j - t j|) :
    distance (stretchedPlace dims X c A y) (stretchedPlace dims X c A t) ≤
      r * q * distance (stretchedPlace dims X c A x) (stretchedPlace dims X c A t) := by
  have hrq : 0 ≤ r * q := mul_nonneg (by linarith) hq
  unfold distance
  rw [← Real.sqrt_sq hrq, ← Real.sqrt_mul (sq_nonneg _)]
  refine Real.sqrt_le_sqrt ?_
  simp only [place_sub]
  rw [sum_sq_perp hp, sum_sq_perp hp, Finset.mul_sum]
  refine Finset.sum_le_sum fun j _ => ?_
  have h0 : 0 ≤ ∑ i, A i j ^ 2 := Finset.sum_nonneg fun i _ => sq_nonneg _
  obtain ⟨w, hw0, hw⟩ := h.width j
  have hrw : w ≤ r * w := by nlinarith
  have hm : 1 ≤ dims j := by have := (hd j).1; omega
  obtain ⟨s, s1, s2, s3⟩ := place_slope hm hw hrw (ht j).1 (ht j).2 (hx j).1 (hx j).2
  obtain ⟨s', s1', s2', s3'⟩ := place_slope hm hw hrw (ht j).1 (ht j).2 (hy j).1 (hy j).2
  rw [s3, s3']
  have key : (s' * (y j - t j)) ^ 2 ≤ (r * q) ^ 2 * (s * (x j - t j)) ^ 2 := by
    rw [← mul_pow]
    refine sq_le_sq' ?_ ?_ |>.trans (le_of_eq (sq_abs _))
    all_goals
      have e1 : |s' * (y j - t j)| ≤ |r * q * (s * (x j - t j))| := by
        rw [abs_mul, abs_mul, abs_mul s, abs_of_nonneg hrq, abs_of_pos (hw0.trans_le s1), abs_of_pos (hw0.trans_le s1')]
        calc s' * |y j - t j| ≤ (r * w) * (q * |x j - t j|) :=
              mul_le_mul s2' (hxy j) (abs_nonneg _) (by nlinarith)
          _ = r * q * (w * |x j - t j|) := by ring
          _ ≤ _ := mul_le_mul_of_nonneg_left (mul_le_mul_of_nonneg_right s1 (abs_nonneg _)) hrq
      have := abs_le.1 e1
      linarith [this.1, this.2]
  calc (∑ i, A i j ^ 2) * (s' * (y j - t j)) ^ 2 ≤ (∑ i, A i j ^ 2) * ((r * q) ^ 2 * (s * (x j - t j)) ^ 2) :=
        mul_le_mul_of_nonneg_left key h0
    _ = _ := by ring

/-! ### One call of `next` -/

/-- A finder on the grid, searching for the point with indices `t`. -/
structure On (dims : Fin n → Nat) (X : Fin n → Nat → ℝ) (c : Fin n → ℝ) (A : Matrix (Fin n) (Fin n) ℝ) (coords : Fin n → Nat → ℝ)
    (t : Fin n → ℝ) (s : Finder ℝ n) : Prop where
  ready : Ready s
  shape : s.dims = dims
  nodes : ∀ i, s.coords i = (List.range (∏ k, dims k)).map (coords i)
  bounds : BoundsOK s
  per : ∀ i, s.indexPeriodicity i = 0
  target : s.targetPoint = stretchedPlace dims X c A t

theorem foldl_sum {α : Type} (f : α → ℝ) : ∀ (l : List α) (a : ℝ), l.foldl (fun res i => res + f i) a = a + (l.map f).sum
  | [], a => by simp
  | b :: l, a => by rw [List.foldl_cons, foldl_sum f l, List.map_cons, List.sum_cons]; ring

theorem next_stretched (g : Gels ℝ) (hg : GelsContract g) (hn : 1 ≤ n) (hr : 1 ≤ r) (hd : GoodDims dims)
    (h : StretchedGrid dims r X c A coords) (t : Fin n → ℝ) (ht : InGrid dims t) (s : Finder ℝ n) (hs : On dims X c A coords t s)
    (hx : InGrid dims s.dIndices) :
    ∃ s1 : Finder ℝ n, s.next g = .ok (s1.finishStep (distance (stretchedPlace dims X c A (newton dims X t s.dIndices))
        (stretchedPlace dims X c A t))) ∧ On dims X c A coords t s1 ∧ s1.dIndices = newton dims X t s.dIndices ∧
      s1.iter = s.iter ∧ s1.errorHistory = s.errorHistory ∧ s1.nitermax = s.nitermax ∧ s1.tolpos = s.tolpos := by
  have hks : KeepsSizes g := hg.sizes
  obtain ⟨⟨b, hb⟩, slvr, hsl, hok⟩ := hs.ready
  have hlen : ∀ i, (s.coords i).length = ∏ k, dims k := fun i => by rw [hs.nodes]; simp
  have hval : ∀ i m, (∀ i, m i < dims i) → (s.coords i)[rowMajor dims m]? = some (coords i (rowMajor dims m)) := by
    intro i m hm
    have hlt := rowMajor_lt dims m hm
    rw [hs.nodes, List.getElem?_map, List.getElem?_range hlt, Option.map_some]
  have hint : ∀ x, InGrid dims x → ∀ i, interp dims x (s.coords i) = .ok (stretchedPlace dims X c A x i) := fun x hx i =>
    interp_stretched hd h x hx i (s.coords i) (hlen i) (hval i)
  set x := s.dIndices with hxd
  have heps := FOpsLaws.eps_pos (K := ℝ)
  -- inside
  have hin : s.inside b = true := by
    unfold Finder.inside
    rw [List.all_eq_true]
    intro i _
    have hbo := hs.bounds b hb i
    obtain ⟨v, hv, h1, h2⟩ := C37_range dims hd t ht (s.coords i) (hlen i) (b.1 i) (b.2 i) (by
      intro m v _ hv
      exact hbo v (List.mem_of_getElem? hv))
    rw [hint t ht i, Except.ok.injEq] at hv
    simp only [Bool.and_eq_true, decide_eq_true_eq]
    rw [hs.target, hv]
    constructor <;> linarith
  -- jacobian
  have hj : s.computeJacobianAndRHS = .ok (fun i j => A i j * slope dims X x j,
      fun i => ∑ j, A i j * (axisPlace (dims j) (X j) (t j) - axisPlace (dims j) (X j) (x j))) := by
    unfold Finder.computeJacobianAndRHS
    rw [forAxes_ok _ (fun i => ∑ j, A i j * (axisPlace (dims j) (X j) (t j) - axisPlace (dims j) (X j) (x j))) (fun i => by
      rw [hs.shape, ← hxd, hint x hx i, hs.target]
      simp only [bind, Except.bind, pure, Except.pure]
      rw [place_sub])]
    simp only [bind, Except.bind]
    rw [forAxes_ok (fun i => forAxes fun j => _) (fun i j => A i j * slope dims X x j)]
    · rfl
    · intro i
      refine forAxes_ok _ _ fun j => ?_
      rw [hs.shape, ← hxd, hint _ (indsHi_inGrid dims hd x hx j) i, hint _ (indsLo_inGrid dims x hx j) i]
      simp only [pure, Except.pure]
      congr 1
      unfold slope
      rw [place_sub, Finset.sum_eq_single j, mul_div_assoc]
      · intro k _ hk
        have e1 : indsHi dims x j k = x k := by unfold indsHi; rw [if_neg hk]
        have e2 : indsLo x j k = x k := by unfold indsLo; rw [if_neg hk]
        rw [e1, e2, sub_self, mul_zero]
      · intro h; exact absurd (Finset.mem_univ _) h
  -- solution
  have hslope : ∀ j, slope dims X x j ≠ 0 := by
    intro j
    obtain ⟨w, hw0, hw⟩ := h.width j
    exact (hw0.trans_le (slope_bounds hd x hx j (by nlinarith) hw).1).ne'
  set J : Matrix (Fin n) (Fin n) ℝ := Matrix.of fun i j => A i j * slope dims X x j with hJ
  have hdet : J.det ≠ 0 := by
    have e : J = Matrix.of fun i j => slope dims X x j * A i j := by
      ext i j
      rw [hJ, Matrix.of_apply, Matrix.of_apply, mul_comm]
    rw [e, Matrix.det_mul_row]
    exact mul_ne_zero (Finset.prod_ne_zero_iff.2 fun j _ => hslope j) h.det
  have hsol : solution g J (fun i => ∑ j, A i j * (axisPlace (dims j) (X j) (t j) - axisPlace (dims j) (X j) (x j))) =
      fun j => (axisPlace (dims j) (X j) (t j) - axisPlace (dims j) (X j) (x j)) / slope dims X x j := by
    have h1 := solution_spec g hg hn J hdet
      (fun i => ∑ j, A i j * (axisPlace (dims j) (X j) (t j) - axisPlace (dims j) (X j) (x j)))
    have h2 : J.mulVec (fun j => (axisPlace (dims j) (X j) (t j) - axisPlace (dims j) (X j) (x j)) / slope dims X x j) =
        fun i => ∑ j, A i j * (axisPlace (dims j) (X j) (t j) - axisPlace (dims j) (X j) (x j)) := by
      funext i
      rw [Matrix.mulVec, dotProduct]
      refine Finset.sum_congr rfl fun j _ => ?_
      rw [hJ, Matrix.of_apply, mul_assoc, mul_div_cancel₀ _ (hslope j)]
    have hu : IsUnit J := (Matrix.isUnit_iff_isUnit_det J).2 (isUnit_iff_ne_zero.2 hdet)
    exact Matrix.mulVec_injective_of_isUnit hu (h1.trans h2.symm)
  have hm : s.moved g J (fun i => ∑ j, A i j * (axisPlace (dims j) (X j) (t j) - axisPlace (dims j) (X j) (x j))) =
      newton dims X t x := by
    funext i
    unfold Finder.moved newton
    rw [hsol, hs.shape, hs.per i, ← hxd]
  have heq := next_eq g hks hn s b hb slvr hsl hok
  rw [if_neg (by rw [hin]; decide), hj] at heq
  simp only [bind, Except.bind] at heq
  have hm' : s.moved g (fun i j => A i j * slope dims X x j)
      (fun i => ∑ j, A i j * (axisPlace (dims j) (X j) (t j) - axisPlace (dims j) (X j) (x j))) = newton dims X t x := hm
  rw [hm'] at heq
  set slvr' := afterSolve g n slvr (flatten2 fun i j => A i j * slope dims X x j)
    (flatten1 fun i => ∑ j, A i j * (axisPlace (dims j) (X j) (t j) - axisPlace (dims j) (X j) (x j))) with hslvr'
  set s1 : Finder ℝ n := { s with slvr := some slvr', dIndices := newton dims X t x } with hs1
  have herr : s1.getError = .ok (distance (stretchedPlace dims X c A (newton dims X t x)) (stretchedPlace dims X c A t)) := by
    have hp : s1.getPosition = .ok (stretchedPlace dims X c A (newton dims X t x)) := by
      unfold Finder.getPosition
      refine forAxes_ok _ _ (fun i => ?_)
      show interp s.dims (newton dims X t x) (s.coords i) = _
      rw [hs.shape]
      exact hint _ (newton_inGrid hd t x) i
    unfold Finder.getError
    rw [hp]
    simp only [bind, Except.bind, pure, Except.pure]
    rw [foldl_sum, zero_add]
    congr 1
    show Real.sqrt _ = Real.sqrt _
    congr 1
    rw [← List.ofFn_eq_map, List.sum_ofFn]
    refine Finset.sum_congr rfl fun i _ => ?_
    rw [show s1.targetPoint = s.targetPoint from rfl, hs.target]
    ring
  rw [herr] at heq
  dsimp only at heq
  refine ⟨s1, heq, ⟨⟨⟨b, hb⟩, slvr', rfl, ?_⟩, hs.shape, hs.nodes, hs.bounds, hs.per, hs.target⟩, rfl, rfl, rfl, rfl, rfl⟩
  exact afterSolve_ok g hks slvr hok _ _

theorem on_finish (t : Fin n → ℝ) (s : Finder ℝ n) (e : ℝ) (h : On dims X c A coords t s) : On dims X c A coords t (s.finishStep e).2 := by
  unfold Finder.finishStep
  dsimp only
  split_ifs <;> exact ⟨h.ready, h.shape, h.nodes, h.bounds, h.per, h.target⟩

/-! ### A whole search -/

theorem iterate_inGrid (hd : GoodDims dims) (t d : Fin n → ℝ) (hdg : InGrid dims d) : ∀ k, InGrid dims ((newton dims X t)^[k] d)
  | 0 => hdg
  | k + 1 => by rw [Function.iterate_succ_apply']; exact newton_inGrid hd t _

theorem iterate_contract (hr : 1 ≤ r) (hd : GoodDims dims) (h : StretchedGrid dims r X c A coords) (t d : Fin n → ℝ) (ht : InGrid dims t)
    (hdg : InGrid dims d) (i : Nat) : ∀ k j, |(newton dims X t)^[i + k] d j - t j| ≤ (r - 1) ^ k * |(newton dims X t)^[i] d j - t j|
  | 0, j => by simp
  | k + 1, j => by
    rw [← Nat.add_assoc, Function.iterate_succ_apply']
    refine (newton_contract hr hd h t _ ht (iterate_inGrid hd t d hdg _) j).trans ?_
    have := mul_le_mul_of_nonneg_left (iterate_contract hr hd h t d ht hdg i k j) (sub_nonneg.2 hr)
    rw [pow_succ']
    linarith [this]

theorem loop_stretched (g : Gels ℝ) (hg : GelsContract g) (hn : 1 ≤ n) (hr : 1 ≤ r) (hr2 : r * (r - 1) ^ 2 ≤ 1) (hd : GoodDims dims)
    (h : StretchedGrid dims r X c A coords) (hp : Perpendicular A) (t d : Fin n → ℝ) (ht : InGrid dims t) (hdg : InGrid dims d)
    (N : Nat) (nitermax : Int) (hN : (N : Int) < nitermax) (tolpos : ℝ)
    (htol : r * (r - 1) ^ N * distance (stretchedPlace dims X c A d) (stretchedPlace dims X c A t) < tolpos) :
    ∀ (m k fuel : Nat) (s : Finder ℝ n), k + m = N → 1 ≤ m → m ≤ fuel → On dims X c A coords t s → s.dIndices = (newton dims X t)^[k] d →
      s.iter = k → s.nitermax = nitermax → s.tolpos = tolpos → s.errorHistory = (List.range k).map (fun i =>
        distance (stretchedPlace dims X c A ((newton dims X t)^[i + 1] d)) (stretchedPlace dims X c A t)) →
      ∃ s' k', searchLoop g fuel s = .ok (1, s') ∧ 1 ≤ k' ∧ k' ≤ N ∧ s'.dIndices = (newton dims X t)^[k'] d ∧ On dims X c A coords t s' ∧
        s'.iter = k'
  | 0, _, _, _, _, h1, _, _, _, _, _, _, _ => by omega
  | m + 1, k, 0, _, _, _, h1, _, _, _, _, _, _ => by omega
  | m + 1, k, fuel + 1, s, hk, _, hf, hs, hI, hit, hni, hto, heh => by
    obtain ⟨s1, hnext, hon, e1, e2, e3, e4, e5⟩ := next_stretched g hg hn hr hd h t ht s hs (by rw [hI]; exact iterate_inGrid hd t d hdg k)
    rw [hI, ← Function.iterate_succ_apply' (newton dims X t) k d] at hnext e1
    set err : Nat → ℝ := fun i => distance (stretchedPlace dims X c A ((newton dims X t)^[i] d)) (stretchedPlace dims X c A t) with herr
    have hnext : s.next g = .ok (s1.finishStep (err (k + 1))) := hnext
    obtain ⟨code, s2, hfin⟩ : ∃ code s2, s1.finishStep (err (k + 1)) = (code, s2) := ⟨_, _, rfl⟩
    have hon2 : On dims X c A coords t s2 := by
      have := on_finish t s1 (err (k + 1)) hon
      rw [hfin] at this; exact this
    obtain ⟨f1, f2, f3, f4, f5, f6, f7, f8, f9, f10, f11⟩ := finishStep_spec s1 _ _ _ hfin.symm
    rw [hfin] at hnext
    have hlen : s2.errorHistory.length = k + 1 := by rw [f2, e3, heh]; simp
    have n2 : code ≠ -2 := by
      intro hc
      obtain ⟨g1, g2⟩ := f11 hc
      rw [hlen] at g1 g2
      have hget : s2.errorHistory.getD (k + 1 - 3) 0 = err (k - 1) := by
        rw [f2, e3, heh, List.getD_eq_getElem?_getD, List.getElem?_append_left (by simp; omega), List.getElem?_map,
          List.getElem?_range (by omega)]
        simp only [Option.map_some, Option.getD_some, herr]
        rw [show k + 1 - 3 + 1 = k - 1 by omega]
      rw [hget] at g2
      have hc2 := iterate_contract hr hd h t d ht hdg (k - 1) 2
      have hle := distance_le hr hd h hp ((r - 1) ^ 2) (sq_nonneg _) t ((newton dims X t)^[k - 1] d) ((newton dims X t)^[k - 1 + 2] d) ht
        (iterate_inGrid hd t d hdg _) (iterate_inGrid hd t d hdg _) hc2
      rw [show k - 1 + 2 = k + 1 by omega] at hle
      have h0 : 0 ≤ err (k - 1) := Real.sqrt_nonneg _
      have heps := FOpsLaws.eps_pos (K := ℝ)
      have hle : err (k + 1) ≤ r * (r - 1) ^ 2 * err (k - 1) := hle
      nlinarith
    have n1 : code ≠ -1 := by
      intro hc
      have := f10 hc
      rw [e4, hni, f1, e2, hit] at this
      omega
    unfold searchLoop
    rw [hnext]
    simp only [bind, Except.bind, pure, Except.pure]
    rcases f7 with hc | hc | hc | hc
    · subst hc
      exact ⟨s2, k + 1, rfl, by omega, by omega, f4.trans e1, hon2, by rw [f1, e2, hit]; push_cast; ring⟩
    · subst hc
      rw [if_pos rfl]
      have hbig := (f9 rfl).1
      rw [e5, hto] at hbig
      have hm : 1 ≤ m := by
        by_contra hm
        have hkN : k + 1 = N := by omega
        have hcN := iterate_contract hr hd h t d ht hdg 0 N
        have hle := distance_le hr hd h hp ((r - 1) ^ N) (pow_nonneg (sub_nonneg.2 hr) _) t ((newton dims X t)^[0] d) ((newton dims X t)^[0 + N] d) ht
          (iterate_inGrid hd t d hdg _) (iterate_inGrid hd t d hdg _) hcN
        rw [Nat.zero_add, ← hkN] at hle
        have hle : err (k + 1) ≤ r * (r - 1) ^ (k + 1) * distance (stretchedPlace dims X c A d) (stretchedPlace dims X c A t) := hle
        rw [hkN] at hle
        rw [← hkN] at hle
        rw [← hkN] at htol
        exact hbig (hle.trans_lt htol)
      refine loop_stretched g hg hn hr hr2 hd h hp t d ht hdg N nitermax hN tolpos htol m (k + 1) fuel s2 (by omega) hm (by omega) hon2
        (f4.trans e1) (by rw [f1, e2, hit]; push_cast; ring) (by rw [f5, e4, hni]) (by rw [f6, e5, hto]) ?_
      rw [f2, e3, heh, List.range_succ, List.map_append]
      rfl
    · exact absurd hc n1
    · exact absurd hc n2

/-- A search that never succeeds: the index along one axis stays in a set of bad places. -/
theorem loop_bad (g : Gels ℝ) (hg : GelsContract g) (hn : 1 ≤ n) (hr : 1 ≤ r) (hd : GoodDims dims)
    (h : StretchedGrid dims r X c A coords) (t : Fin n → ℝ) (ht : InGrid dims t) (i0 : Fin n) (Bad : ℝ → Prop) (tolpos : ℝ)
    (hbad : ∀ x, InGrid dims x → Bad (x i0) → Bad (newton dims X t x i0) ∧
      tolpos ≤ distance (stretchedPlace dims X c A (newton dims X t x)) (stretchedPlace dims X c A t)) :
    ∀ (fuel : Nat) (s : Finder ℝ n), On dims X c A coords t s → InGrid dims s.dIndices → Bad (s.dIndices i0) → s.tolpos = tolpos →
      ∃ code s', searchLoop g fuel s = .ok (code, s') ∧ code ≠ 1 ∧ On dims X c A coords t s' ∧ InGrid dims s'.dIndices ∧ Bad (s'.dIndices i0)
  | 0, s, hs, hI, hb, _ => ⟨0, s, rfl, by norm_num, hs, hI, hb⟩
  | fuel + 1, s, hs, hI, hb, hto => by
    obtain ⟨s1, hnext, hon, e1, e2, e3, e4, e5⟩ := next_stretched g hg hn hr hd h t ht s hs hI
    obtain ⟨b1, b2⟩ := hbad s.dIndices hI hb
    set e := distance (stretchedPlace dims X c A (newton dims X t s.dIndices)) (stretchedPlace dims X c A t) with he
    obtain ⟨code, s2, hfin⟩ : ∃ code s2, s1.finishStep e = (code, s2) := ⟨_, _, rfl⟩
    have hon2 : On dims X c A coords t s2 := by
      have := on_finish t s1 e hon
      rw [hfin] at this; exact this
    obtain ⟨_, _, _, f4, _, f6, _, f8, _⟩ := finishStep_spec s1 _ _ _ hfin.symm
    rw [hfin] at hnext
    have hI2 : InGrid dims s2.dIndices := by rw [f4, e1]; exact newton_inGrid hd t _
    have hb2 : Bad (s2.dIndices i0) := by rw [f4, e1]; exact b1
    have n1 : code ≠ 1 := by
      intro hc
      have := (f8 hc).1
      rw [e5, hto] at this
      linarith
    unfold searchLoop
    rw [hnext]
    simp only [bind, Except.bind, pure, Except.pure]
    split_ifs with h0
    · exact loop_bad g hg hn hr hd h t ht i0 Bad tolpos hbad fuel s2 hon2 hI2 hb2 (by rw [f6, e5, hto])
    · exact ⟨code, s2, rfl, n1, hon2, hI2, hb2⟩

/-- Indices half a cell to each side. -/
theorem indsHi_at (hd : GoodDims dims) (x : Fin n → ℝ) (j : Fin n) : indsHi dims x j j = min (x j + 1 / 2) ((dims j : ℝ) - 1) := by
  have e : ((dims j - 1 : Nat) : ℝ) = (dims j : ℝ) - 1 := by
    push_cast [Nat.cast_sub (show 1 ≤ dims j by have := (hd j).1; omega)]; ring
  unfold indsHi
  simp only [if_true]
  rw [e, show (1 : ℝ) + 1 = 2 by norm_num]
  split_ifs with hc
  · exact (min_eq_left hc).symm
  · exact (min_eq_right (not_le.1 hc).le).symm

theorem indsLo_at (x : Fin n → ℝ) (j : Fin n) : indsLo x j j = max (x j - 1 / 2) 0 := by
  unfold indsLo
  simp only [if_true]
  rw [show (1 : ℝ) + 1 = 2 by norm_num]
  split_ifs with hc
  · exact (max_eq_left hc).symm
  · exact (max_eq_right (not_le.1 hc).le).symm

theorem truncate_zero (m : Nat) (hm : 1 ≤ m) (x : ℝ) : truncateIndex 0 m x = min (max x 0) ((m : ℝ) - 1) := by
  have e : ((m - 1 : Nat) : ℝ) = (m : ℝ) - 1 := by push_cast [Nat.cast_sub hm]; ring
  unfold truncateIndex
  dsimp only
  rw [if_neg (show ¬ ((0 : ℝ) ≠ 0) by simp), e]
  have h1 : (if x < 0 then 0 else x) = max x 0 := by
    split_ifs with h
    · exact (max_eq_right h.le).symm
    · exact (max_eq_left (not_lt.1 h)).symm
  rw [h1]
  split_ifs with h
  · exact (min_eq_right h.le).symm
  · exact (min_eq_left (not_lt.1 h)).symm

end
end Sg.Stretched
