import Verif.Spec.Curved
import Verif.Proof.Stretched
import Mathlib.Analysis.InnerProductSpace.PiL2
import Mathlib.Algebra.Order.Chebyshev
namespace Sg.Curved
open Sg Sg.FindPoint Sg.LinearSolve Sg.Spec Sg.Props Sg.Stretched

/-! ### One axis -/

section
variable {V : Type} [NormedAddCommGroup V] [NormedSpace ℝ V]

theorem ramp_one {k : Nat} {u : ℝ} (h : (k : ℝ) + 1 ≤ u) : ramp (fun k => (k : ℝ)) k u = 1 := by
  unfold ramp
  push_cast
  rw [add_sub_cancel_left, div_one, min_eq_left (by linarith), max_eq_right (by norm_num)]

theorem ramp_zero {k : Nat} {u : ℝ} (h : u ≤ k) : ramp (fun k => (k : ℝ)) k u = 0 := by
  unfold ramp
  push_cast
  rw [add_sub_cancel_left, div_one, min_eq_right (by linarith), max_eq_left (by linarith)]

theorem ramp_mid {k : Nat} {u : ℝ} (h0 : (k : ℝ) ≤ u) (h1 : u ≤ k + 1) : ramp (fun k => (k : ℝ)) k u = u - k := by
  unfold ramp
  push_cast
  rw [add_sub_cancel_left, div_one, min_eq_right (by linarith), max_eq_right (by linarith)]

theorem polyline_cell {m : Nat} (f : Nat → V) {k : Nat} (hk : k + 1 < m) {u : ℝ} (h0 : (k : ℝ) ≤ u) (h1 : u ≤ k + 1) :
    polyline m f u = (1 - (u - k)) • f k + (u - k) • f (k + 1) := by
  have key : ∀ j, ∑ i ∈ Finset.range j, ramp (fun k => (k : ℝ)) i u • (f (i + 1) - f i) =
      if j ≤ k then f j - f 0 else (1 - (u - k)) • f k + (u - k) • f (k + 1) - f 0 := by
    intro j
    induction j with
    | zero => simp
    | succ j ih =>
      rw [Finset.sum_range_succ, ih]
      rcases lt_trichotomy j k with hlt | rfl | hgt
      · have : (j : ℝ) + 1 ≤ k := by exact_mod_cast hlt
        rw [ramp_one (this.trans h0), if_pos (by omega), if_pos (by omega), one_smul]; abel
      · rw [ramp_mid h0 h1, if_pos le_rfl, if_neg (by omega)]; module
      · have : (k : ℝ) + 1 ≤ j := by exact_mod_cast hgt
        rw [ramp_zero (h1.trans this), if_neg (by omega), if_neg (by omega), zero_smul, add_zero]
  unfold polyline
  rw [key, if_neg (by omega)]
  abel

theorem polyline_node {m : Nat} (hm : 2 ≤ m) (f : Nat → V) {k : Nat} (hk : k < m) : polyline m f (k : ℝ) = f k := by
  by_cases h : k + 1 < m
  · rw [polyline_cell f h le_rfl (by linarith)]; simp
  · obtain ⟨j, rfl⟩ : ∃ j, k = j + 1 := ⟨k - 1, by omega⟩
    rw [polyline_cell f (k := j) (by omega) (by push_cast; linarith) (by push_cast; linarith)]
    push_cast
    simp

/-- A place between two nodes, in the range from `lo` to `hi`. -/
theorem polyline_mean {m : Nat} (hm : 2 ≤ m) (f : Nat → V) {lo hi : Nat} (hhi : hi < m) {u : ℝ} (h0 : (lo : ℝ) ≤ u) (h1 : u ≤ hi) (δ : V) (ε : ℝ)
    (hf : ∀ k, lo ≤ k → k ≤ hi → ‖f k - δ‖ ≤ ε) : ‖polyline m f u - δ‖ ≤ ε := by
  have hle : lo ≤ hi := by exact_mod_cast h0.trans h1
  rcases hle.eq_or_lt with rfl | hlt
  · obtain rfl : u = lo := le_antisymm h1 h0
    rw [polyline_node hm f hhi]
    exact hf _ le_rfl le_rfl
  · obtain ⟨k, hk, a, b⟩ := FlowInterp.exists_cell (X := fun k => ((lo + k : Nat) : ℝ)) (m := hi - lo) (u := u) (by omega) (by simpa using h0)
      (by rw [show lo + (hi - lo) = hi by omega]; exact h1)
    rw [polyline_cell f (k := lo + k) (by omega) a (by push_cast at b ⊢; linarith)]
    set s := u - ((lo + k : Nat) : ℝ) with hs
    have hs0 : 0 ≤ s := by rw [hs]; linarith
    have hs1 : s ≤ 1 := by rw [hs]; push_cast at b ⊢; linarith
    have e : (1 - s) • f (lo + k) + s • f (lo + k + 1) - δ = (1 - s) • (f (lo + k) - δ) + s • (f (lo + k + 1) - δ) := by
      module
    rw [e]
    refine (norm_add_le _ _).trans ?_
    rw [norm_smul, norm_smul, Real.norm_of_nonneg (sub_nonneg.2 hs1), Real.norm_of_nonneg hs0]
    have b1 := mul_le_mul_of_nonneg_left (hf (lo + k) (by omega) (by omega)) (sub_nonneg.2 hs1)
    have b2 := mul_le_mul_of_nonneg_left (hf (lo + k + 1) (by omega) (by omega)) hs0
    linarith

/-- Differences along the axis. -/
theorem polyline_diff {m : Nat} (f : Nat → V) {lo hi : Nat} (hhi : hi < m) (δ : V) (ε : ℝ)
    (hf : ∀ k, lo ≤ k → k < hi → ‖f (k + 1) - f k - δ‖ ≤ ε) {a b : ℝ} (ha0 : (lo : ℝ) ≤ a) (ha1 : a ≤ hi) (hb0 : (lo : ℝ) ≤ b) (hb1 : b ≤ hi) :
    ‖polyline m f a - polyline m f b - (a - b) • δ‖ ≤ ε * |a - b| := by
  wlog hba : b ≤ a generalizing a b
  · have := this hb0 hb1 ha0 ha1 (le_of_not_ge hba)
    rw [abs_sub_comm, ← norm_neg]
    refine le_of_eq_of_le ?_ this
    congr 1
    rw [sub_smul, sub_smul]; abel
  have hcm : (hi : ℝ) ≤ ((m - 1 : Nat) : ℝ) := by exact_mod_cast (show hi ≤ m - 1 by omega)
  have hlo : (0 : ℝ) ≤ lo := Nat.cast_nonneg _
  have sa := clamp_sum (m - 1) a (by linarith) (by linarith)
  have sb := clamp_sum (m - 1) b (by linarith) (by linarith)
  set c : Nat → ℝ := fun k => ramp (fun k => (k : ℝ)) k a - ramp (fun k => (k : ℝ)) k b with hc
  have hsum : a - b = ∑ k ∈ Finset.range (m - 1), c k := by rw [hc, Finset.sum_sub_distrib, sa, sb]
  have hd : polyline m f a - polyline m f b - (a - b) • δ = ∑ k ∈ Finset.range (m - 1), c k • (f (k + 1) - f k - δ) := by
    rw [hsum, Finset.sum_smul]
    unfold polyline
    rw [add_sub_add_left_eq_sub, ← Finset.sum_sub_distrib, ← Finset.sum_sub_distrib]
    refine Finset.sum_congr rfl fun k _ => ?_
    rw [← sub_smul, ← smul_sub]
  rw [hd, abs_of_nonneg (sub_nonneg.2 hba), hsum, Finset.mul_sum]
  refine (norm_sum_le _ _).trans (Finset.sum_le_sum fun k _ => ?_)
  have hc0 : 0 ≤ c k := sub_nonneg.2 (ramp_mono k hba)
  rw [norm_smul, Real.norm_of_nonneg hc0]
  by_cases h1 : k < lo
  · have : (k : ℝ) + 1 ≤ lo := by exact_mod_cast h1
    have : c k = 0 := by rw [hc]; dsimp only; rw [ramp_one (by linarith), ramp_one (by linarith), sub_self]
    rw [this]; simp
  by_cases h2 : hi ≤ k
  · have : (hi : ℝ) ≤ k := by exact_mod_cast h2
    have : c k = 0 := by rw [hc]; dsimp only; rw [ramp_zero (by linarith), ramp_zero (by linarith), sub_self]
    rw [this]; simp
  rw [mul_comm]
  exact mul_le_mul_of_nonneg_right (hf k (by omega) (by omega)) hc0

theorem polyline_sub (m : Nat) (f h : Nat → V) (u : ℝ) : polyline m (fun k => f k - h k) u = polyline m f u - polyline m h u := by
  unfold polyline
  rw [add_sub_add_comm, ← Finset.sum_sub_distrib]
  congr 1
  refine Finset.sum_congr rfl fun k _ => ?_
  rw [← smul_sub, sub_sub_sub_comm]

theorem polyline_map {W : Type} [AddCommGroup W] [Module ℝ W] (L : V →ₗ[ℝ] W) (m : Nat) (f : Nat → V) (u : ℝ) :
    L (polyline m f u) = polyline m (fun k => L (f k)) u := by
  unfold polyline
  simp only [map_add, map_sum, map_smul, map_sub]

/-! ### All axes -/

theorem interpolated_sub : ∀ {n : Nat} (dims : Fin n → Nat) (φ ψ : (Fin n → Nat) → V) (u : Fin n → ℝ),
    interpolated dims (fun m => φ m - ψ m) u = interpolated dims φ u - interpolated dims ψ u
  | 0, _, _, _, _ => rfl
  | n + 1, dims, φ, ψ, u => by
    unfold interpolated
    rw [← polyline_sub]
    congr 1
    funext k
    exact interpolated_sub _ _ _ _

theorem interpolated_map {W : Type} [AddCommGroup W] [Module ℝ W] (L : V →ₗ[ℝ] W) : ∀ {n : Nat} (dims : Fin n → Nat) (φ : (Fin n → Nat) → V) (u : Fin n → ℝ),
    L (interpolated dims φ u) = interpolated dims (fun m => L (φ m)) u
  | 0, _, _, _ => rfl
  | n + 1, dims, φ, u => by
    unfold interpolated
    rw [polyline_map]
    congr 1
    funext k
    exact interpolated_map L _ _ _

/-- Indices and positions in a box. -/
def NodeIn {n : Nat} (lo hi m : Fin n → Nat) : Prop := ∀ i, lo i ≤ m i ∧ m i ≤ hi i
def PosIn {n : Nat} (lo hi : Fin n → Nat) (u : Fin n → ℝ) : Prop := ∀ i, (lo i : ℝ) ≤ u i ∧ u i ≤ hi i

theorem nodeIn_cons {n : Nat} {lo hi : Fin (n + 1) → Nat} {k : Nat} {m : Fin n → Nat} (hk : lo 0 ≤ k ∧ k ≤ hi 0)
    (hm : NodeIn (fun i => lo i.succ) (fun i => hi i.succ) m) : NodeIn lo hi (Fin.cons k m) := by
  intro i
  refine Fin.cases ?_ (fun i => ?_) i
  · simpa using hk
  · simpa using hm i

theorem interpolated_mean : ∀ {n : Nat} (dims : Fin n → Nat) (_ : ∀ i, 2 ≤ dims i) (lo hi : Fin n → Nat) (_ : ∀ i, hi i < dims i) (φ : (Fin n → Nat) → V)
    (δ : V) (ε : ℝ) (_ : ∀ m, NodeIn lo hi m → ‖φ m - δ‖ ≤ ε) (u : Fin n → ℝ) (_ : PosIn lo hi u), ‖interpolated dims φ u - δ‖ ≤ ε
  | 0, _, _, _, _, _, φ, δ, ε, h, _, _ => h _ fun i => i.elim0
  | n + 1, dims, hd, lo, hi, hhi, φ, δ, ε, h, u, hu => by
    unfold interpolated
    refine polyline_mean (hd 0) _ (hhi 0) (hu 0).1 (hu 0).2 δ ε fun k h1 h2 => ?_
    exact interpolated_mean _ (fun i => hd _) (fun i => lo i.succ) (fun i => hi i.succ) (fun i => hhi _) _ δ ε
      (fun m hm => h _ (nodeIn_cons ⟨h1, h2⟩ hm)) _ fun i => hu _

/-- Differences of interpolated values. -/
theorem interpolated_diff : ∀ {n : Nat} (dims : Fin n → Nat) (_ : ∀ i, 2 ≤ dims i) (lo hi : Fin n → Nat) (_ : ∀ i, hi i < dims i) (φ : (Fin n → Nat) → V)
    (δ : Fin n → V) (ε : Fin n → ℝ) (_ : ∀ m, NodeIn lo hi m → ∀ j, m j < hi j → ‖φ (Function.update m j (m j + 1)) - φ m - δ j‖ ≤ ε j)
    (a b : Fin n → ℝ) (_ : PosIn lo hi a) (_ : PosIn lo hi b),
    ‖interpolated dims φ a - interpolated dims φ b - ∑ j, (a j - b j) • δ j‖ ≤ ∑ j, ε j * |a j - b j|
  | 0, _, _, _, _, _, φ, δ, ε, h, a, b, _, _ => by simp [interpolated]
  | n + 1, dims, hd, lo, hi, hhi, φ, δ, ε, h, a, b, ha, hb => by
    set I : Nat → (Fin n → ℝ) → V := fun k u => interpolated (fun i => dims i.succ) (fun m => φ (Fin.cons k m)) u with hI
    set a' : Fin n → ℝ := fun i => a i.succ with ha'
    set b' : Fin n → ℝ := fun i => b i.succ with hb'
    have e1 : interpolated dims φ a = polyline (dims 0) (fun k => I k a') (a 0) := rfl
    have e2 : interpolated dims φ b = polyline (dims 0) (fun k => I k b') (b 0) := rfl
    have hin : ∀ k, lo 0 ≤ k → k ≤ hi 0 → ‖I k a' - I k b' - ∑ j : Fin n, (a' j - b' j) • δ j.succ‖ ≤ ∑ j : Fin n, ε j.succ * |a' j - b' j| := by
      intro k h1 h2
      refine interpolated_diff _ (fun i => hd _) (fun i => lo i.succ) (fun i => hi i.succ) (fun i => hhi _) _ (fun j => δ j.succ)
        (fun j => ε j.succ) ?_ a' b' (fun i => ha _) (fun i => hb _)
      intro m hm j hj
      have := h (Fin.cons k m) (nodeIn_cons ⟨h1, h2⟩ hm) j.succ (by simpa using hj)
      rw [← Fin.cons_update, Fin.cons_succ] at this
      exact this
    have hax : ∀ k, lo 0 ≤ k → k < hi 0 → ‖I (k + 1) a' - I k a' - δ 0‖ ≤ ε 0 := by
      intro k h1 h2
      rw [hI]
      dsimp only
      rw [← interpolated_sub]
      refine interpolated_mean _ (fun i => hd _) (fun i => lo i.succ) (fun i => hi i.succ) (fun i => hhi _) _ _ _ ?_ _ (fun i => ha _)
      intro m hm
      have := h (Fin.cons k m) (nodeIn_cons ⟨h1, h2.le⟩ hm) 0 (by simpa using h2)
      rw [Fin.update_cons_zero, Fin.cons_zero] at this
      exact this
    have p1 := polyline_diff (fun k => I k a') (hhi 0) (δ 0) (ε 0) hax (ha 0).1 (ha 0).2 (hb 0).1 (hb 0).2
    have p2 : ‖polyline (dims 0) (fun k => I k a' - I k b') (b 0) - ∑ j : Fin n, (a' j - b' j) • δ j.succ‖ ≤ ∑ j : Fin n, ε j.succ * |a' j - b' j| :=
      polyline_mean (hd 0) _ (hhi 0) (hb 0).1 (hb 0).2 _ _ hin
    rw [polyline_sub] at p2
    rw [e1, e2, Fin.sum_univ_succ, Fin.sum_univ_succ]
    have split : polyline (dims 0) (fun k => I k a') (a 0) - polyline (dims 0) (fun k => I k b') (b 0) -
        ((a 0 - b 0) • δ 0 + ∑ j : Fin n, (a j.succ - b j.succ) • δ j.succ) =
        (polyline (dims 0) (fun k => I k a') (a 0) - polyline (dims 0) (fun k => I k a') (b 0) - (a 0 - b 0) • δ 0) +
        (polyline (dims 0) (fun k => I k a') (b 0) - polyline (dims 0) (fun k => I k b') (b 0) - ∑ j : Fin n, (a' j - b' j) • δ j.succ) := by
      rw [ha', hb']; abel
    rw [split]
    exact (norm_add_le _ _).trans (add_le_add p1 p2)

end

/-! ### The interpolation of the code -/

theorem corners_sum : ∀ {n : Nat} (dims lo : Fin n → Nat) (φ : (Fin n → Nat) → ℝ) (u : Fin n → ℝ)
    (_ : ∀ i, (lo i : ℝ) ≤ u i ∧ u i ≤ lo i + 1 ∧ lo i + 2 ≤ dims i),
    ∑ j ∈ Finset.range (2 ^ n), (∏ i, (if bit n j i = 0 then (lo i : ℝ) + 1 - u i else u i - lo i)) * φ (fun i => lo i + bit n j i) =
      interpolated dims φ u
  | 0, dims, lo, φ, u, h => by
    simp only [pow_zero, Finset.range_one, Finset.sum_singleton, Finset.univ_eq_empty, Finset.prod_empty, one_mul]
    unfold interpolated
    congr 1
    funext i; exact i.elim0
  | n + 1, dims, lo, φ, u, h => by
    have h2 : 2 ^ (n + 1) = 2 ^ n + 2 ^ n := by ring
    have ih : ∀ k : Nat, _ := fun k => corners_sum (fun i => dims i.succ) (fun i => lo i.succ) (fun m => φ (Fin.cons k m)) (fun i => u i.succ) (fun i => h _)
    unfold interpolated
    rw [polyline_cell _ (k := lo 0) (by have := (h 0).2.2; omega) (h 0).1 (h 0).2.1, ← ih, ← ih, h2, Finset.sum_range_add]
    simp only [smul_eq_mul]
    rw [Finset.mul_sum, Finset.mul_sum]
    congr 1
    · refine Finset.sum_congr rfl fun j hj => ?_
      have hj := Finset.mem_range.1 hj
      rw [Fin.prod_univ_succ]
      simp only [bit_zero_lo hj, bit_succ_lo, if_true]
      have : (fun i : Fin (n + 1) => lo i + bit (n + 1) j i) = Fin.cons (lo 0) (fun i : Fin n => lo i.succ + bit n j i) := by
        funext i
        refine Fin.cases ?_ (fun i => ?_) i
        · simp [bit_zero_lo hj]
        · simp [bit_succ_lo]
      rw [this]
      ring
    · refine Finset.sum_congr rfl fun j hj => ?_
      have hj := Finset.mem_range.1 hj
      rw [Fin.prod_univ_succ]
      simp only [bit_zero_hi hj, bit_succ_hi, one_ne_zero, if_false]
      have : (fun i : Fin (n + 1) => lo i + bit (n + 1) (2 ^ n + j) i) = Fin.cons (lo 0 + 1) (fun i : Fin n => lo i.succ + bit n j i) := by
        funext i
        refine Fin.cases ?_ (fun i => ?_) i
        · simp [bit_zero_hi hj]
        · simp [bit_succ_hi]
      rw [this]
      ring

theorem interp_grid {n : Nat} {dims : Fin n → Nat} (hd : GoodDims dims) (coords : Fin n → Nat → ℝ) (x : Fin n → ℝ) (hx : InGrid dims x)
    (i : Fin n) (field : List ℝ) (hlen : field.length = ∏ k, dims k)
    (hf : ∀ m, (∀ i, m i < dims i) → field[rowMajor dims m]? = some (coords i (rowMajor dims m))) :
    interp dims x field = .ok (gridPlace dims coords x i) := by
  rw [interp_ok dims hd x hx field hlen]
  congr 1
  unfold gridPlace
  rw [← corners_sum dims (cellLo dims x) _ x (fun j => cellLo_bounds dims hd x hx j)]
  refine Finset.sum_congr rfl fun j _ => ?_
  congr 1
  rw [List.getD_eq_getElem?_getD, hf _ (cornerNode_lt dims hd x hx j)]
  rfl

end Sg.Curved
