import Verif.Props.NodeAccuracyRounding
/-
Property C158: destination nodes away from the source grid, in rounded arithmetic.
-/
namespace Sg.Props
open Sg Sg.FindPoint Sg.LinearSolve Sg.Spec Sg.NodeInterp

variable {rnd : ℝ → ℝ}

/-- A straight line separates the point from all the nodes of the grid, which are more than `T` away from it: along the direction `v`, every node comes before the point by
more than `T` times the length of `v`. -/
def Away (dims : Fin 2 → Nat) (coords : Fin 2 → Nat → Fl rnd) (T : ℝ) (p : Fin 2 → Fl rnd) : Prop :=
  ∃ v : Fin 2 → ℝ, ∀ m < dims 0 * dims 1,
    v 0 * (coords 0 m).val + v 1 * (coords 1 m).val + Real.sqrt (v 0 ^ 2 + v 1 ^ 2) * T < v 0 * (p 0).val + v 1 * (p 1).val

theorem along_le (v x y : Fin 2 → ℝ) : v 0 * y 0 + v 1 * y 1 - (v 0 * x 0 + v 1 * x 1) ≤ Real.sqrt (v 0 ^ 2 + v 1 ^ 2) * distance x y := by
  unfold distance
  rw [← Real.sqrt_mul (by positivity)]
  refine Real.le_sqrt_of_sq_le ?_
  simp only [Fin.sum_univ_two]
  nlinarith [sq_nonneg (v 0 * (x 1 - y 1) - v 1 * (x 0 - y 0))]

theorem mean_before (iw : List (Int × ℝ)) (a : Int × ℝ → ℝ) (B : ℝ) (h0 : ∀ e ∈ iw, 0 ≤ e.2) (h : ∀ e ∈ iw, a e ≤ B) :
    (iw.map fun e : Int × ℝ => e.2 * a e).sum ≤ B * (iw.map Prod.snd).sum := by
  induction iw with
  | nil => simp
  | cons e l ih =>
    have ih := ih (fun e he => h0 e (List.mem_cons_of_mem _ he)) (fun e he => h e (List.mem_cons_of_mem _ he))
    have h2 := mul_le_mul_of_nonneg_left (h e List.mem_cons_self) (h0 e List.mem_cons_self)
    simp only [List.map_cons, List.sum_cons]
    nlinarith

/-- **C158** In any arithmetic with roundings of relative error at most `u < 1` that keeps the order and the integers up to `2^31`, for any two grids and any solver: a
destination node that a straight line separates from the source grid, by more than the tolerance with its rounding errors, gets no weights, and `apply` leaves the
caller's value there. -/
theorem C158_away {u : ℝ} (hr : Rounds rnd u 0) (hu : u < 1) {N : Nat} (hN : KeepsInts rnd N) (h31 : 2 ^ 31 ≤ N) (g : Gels (Fl rnd)) (hg : KeepsSizes g)
    (nitermax : Int) (tolpos : Fl rnd) (dims : Fin 2 → Nat) (hd : ∀ i, 2 ≤ dims i ∧ dims i ≤ 2 ^ 30) (per : Fin 2 → Int)
    (coords : Fin 2 → Nat → Fl rnd) (M : ℝ) (hM0 : 0 ≤ M) (hM : ∀ i, ∀ m < dims 0 * dims 1, |(coords i m).val| ≤ M)
    (dd : Fin 2 → Nat) (dc : Fin 2 → Nat → Fl rnd) (src dst : List (Fl rnd)) (hsrc : src.length = dims 0 * dims 1) (hdst : dst.length = dd 0 * dd 1) :
    ∃ o d, (((new nitermax tolpos).setSrcGrid dims per coords).setDstGrid dd dc).computeWeights g = .ok o ∧ o.apply src dst = .ok d ∧
      ∀ k, Away dims coords (roundedTol u tolpos.val M) (fun i => dc i k) → (∀ iw, (k, iw) ∉ o.weights) ∧ d[k]? = dst[k]? := by
  obtain ⟨Φ, hΦ⟩ : ∃ Φ, ∀ v ∈ src, |v.val| ≤ Φ := by
    clear hsrc
    induction src with
    | nil => exact ⟨0, by simp⟩
    | cons a l ih =>
      obtain ⟨Φ, h⟩ := ih
      refine ⟨max |a.val| Φ, fun v hv => ?_⟩
      rcases List.mem_cons.1 hv with rfl | hv
      · exact le_max_left _ _
      · exact (h v hv).trans (le_max_right _ _)
  obtain ⟨o, d, ho, ha, hent⟩ := entry_fl hr hu hN h31 g hg nitermax tolpos dims hd per coords M hM0 hM dd dc src dst hsrc hdst Φ hΦ
  obtain ⟨o', d', ho', ha', -, hkeep, -⟩ := C108_range hr hN h31 g hg nitermax tolpos dims hd per coords dd dc src dst hsrc hdst (-Φ) Φ
    (fun v hv => abs_le.mp (hΦ v hv))
  rw [ho, Except.ok.injEq] at ho'
  subst ho'
  rw [ha, Except.ok.injEq] at ha'
  subst ha'
  refine ⟨o, d, ho, ha, fun k haway => ?_⟩
  have hno : ∀ iw, (k, iw) ∉ o.weights := by
    intro iw hk
    obtain ⟨v, hv⟩ := haway
    obtain ⟨-, -, -, iwR, w0, w1, w2, -, w4, -⟩ := hent k iw hk
    set x : Fin 2 → ℝ := fun i => (iwR.map fun e => e.2 * (coords i e.1.toNat).val).sum with hx
    have h1 := along_le v x (fun i => (dc i k).val)
    have h2 := mul_le_mul_of_nonneg_left w2.le (Real.sqrt_nonneg (v 0 ^ 2 + v 1 ^ 2))
    set T := Real.sqrt (v 0 ^ 2 + v 1 ^ 2) * roundedTol u tolpos.val M with hT
    -- the node that comes last along `v`
    obtain ⟨m, hm, hmax⟩ : ∃ m < dims 0 * dims 1, ∀ e ∈ iwR, v 0 * (coords 0 e.1.toNat).val + v 1 * (coords 1 e.1.toNat).val ≤
        v 0 * (coords 0 m).val + v 1 * (coords 1 m).val := by
      obtain ⟨m, hm, hmx⟩ := Finset.exists_max_image (Finset.range (dims 0 * dims 1)) (fun m => v 0 * (coords 0 m).val + v 1 * (coords 1 m).val)
        ⟨0, Finset.mem_range.2 (Nat.mul_pos (by have := (hd 0).1; omega) (by have := (hd 1).1; omega))⟩
      exact ⟨m, Finset.mem_range.1 hm, fun e he => hmx _ (Finset.mem_range.2 (w4 e he))⟩
    have h3 := mean_before iwR (fun e => v 0 * (coords 0 e.1.toNat).val + v 1 * (coords 1 e.1.toNat).val) _ w0 hmax
    rw [w1, mul_one] at h3
    have h4 : (iwR.map fun e : Int × ℝ => e.2 * (v 0 * (coords 0 e.1.toNat).val + v 1 * (coords 1 e.1.toNat).val)).sum = v 0 * x 0 + v 1 * x 1 := by
      rw [hx]
      dsimp only
      rw [← List.sum_map_mul_left, ← List.sum_map_mul_left, ← List.sum_map_add]
      congr 1
      refine List.map_congr_left fun e _ => ?_
      ring
    have h5 := hv m hm
    dsimp only at h1 h5
    linarith
  exact ⟨hno, hkeep k hno⟩

/-- **C158** The same in double precision: the margin is the tolerance, and `2 10^-15` times the tolerance and the largest coordinate. -/
theorem C158_double (g : Gels (Fl (nearest 53))) (hg : KeepsSizes g)
    (nitermax : Int) (tolpos : Fl (nearest 53)) (htol : 0 ≤ tolpos.val) (dims : Fin 2 → Nat) (hd : ∀ i, 2 ≤ dims i ∧ dims i ≤ 2 ^ 30) (per : Fin 2 → Int)
    (coords : Fin 2 → Nat → Fl (nearest 53)) (M : ℝ) (hM0 : 0 ≤ M) (hM : ∀ i, ∀ m < dims 0 * dims 1, |(coords i m).val| ≤ M)
    (dd : Fin 2 → Nat) (dc : Fin 2 → Nat → Fl (nearest 53)) (src dst : List (Fl (nearest 53))) (hsrc : src.length = dims 0 * dims 1)
    (hdst : dst.length = dd 0 * dd 1) :
    ∃ o d, (((new nitermax tolpos).setSrcGrid dims per coords).setDstGrid dd dc).computeWeights g = .ok o ∧ o.apply src dst = .ok d ∧
      ∀ k, Away dims coords (tolpos.val + 2 / 10 ^ 15 * (tolpos.val + M)) (fun i => dc i k) → (∀ iw, (k, iw) ∉ o.weights) ∧ d[k]? = dst[k]? := by
  obtain ⟨o, d, ho, ha, h⟩ := C158_away (nearest_rounds 53) (by norm_num) (nearest_ints 53 (by norm_num)) (by norm_num) g hg nitermax tolpos dims hd per coords M hM0 hM
    dd dc src dst hsrc hdst
  refine ⟨o, d, ho, ha, fun k ⟨v, hv⟩ => h k ⟨v, fun m hm => ?_⟩⟩
  have e1 := mul_le_mul_of_nonneg_left (roundedTol_double tolpos.val M htol hM0) (Real.sqrt_nonneg (v 0 ^ 2 + v 1 ^ 2))
  exact (add_le_add_right e1 _).trans_lt (hv m hm)

/-- The hypotheses are met: the unit square as source grid, and the point `(3, 3)`, which its diagonal direction separates from the square. The caller's 7 stays. -/
example : ∃ o d, (((new 2 (⟨1⟩ : Fl (nearest 53))).setSrcGrid ![2, 2] ![0, 0] squareNodes).setDstGrid ![1, 1] (fun _ _ => ⟨3⟩)).computeWeights
    stepBack = .ok o ∧ o.apply ((List.range 4).map (squareNodes 0)) [⟨7⟩] = .ok d ∧ (∀ iw, (0, iw) ∉ o.weights) ∧ d[0]? = some ⟨7⟩ := by
  have hd : ∀ i : Fin 2, 2 ≤ (![2, 2] : Fin 2 → Nat) i ∧ (![2, 2] : Fin 2 → Nat) i ≤ 2 ^ 30 := by intro i; fin_cases i <;> simp
  have hb : ∀ i m, |(squareNodes i m : Fl (nearest 53)).val| ≤ 1 := by
    intro i m
    unfold squareNodes
    split_ifs <;> norm_num
  obtain ⟨o, d, ho, ha, h⟩ := C158_double stepBack (fun r => ⟨rfl, by simp [stepBack]⟩) 2 ⟨1⟩ zero_le_one ![2, 2] hd ![0, 0] squareNodes 1 zero_le_one
    (fun i m _ => hb i m) ![1, 1] (fun _ _ => ⟨3⟩) ((List.range 4).map (squareNodes 0)) [⟨7⟩] rfl rfl
  refine ⟨o, d, ho, ha, h 0 ⟨![1, 1], fun m _ => ?_⟩⟩
  have h0 := (abs_le.1 (hb 0 m)).2
  have h1 := (abs_le.1 (hb 1 m)).2
  have hs : Real.sqrt ((![1, 1] : Fin 2 → ℝ) 0 ^ 2 + (![1, 1] : Fin 2 → ℝ) 1 ^ 2) ≤ 2 := by
    rw [Real.sqrt_le_left (by norm_num)]
    simp only [Matrix.cons_val_zero, Matrix.cons_val_one]
    norm_num
  have hs' := mul_le_mul_of_nonneg_right hs (show (0 : ℝ) ≤ 1 + 2 / 10 ^ 15 * (1 + 1) by norm_num)
  simp only [Matrix.cons_val_zero, Matrix.cons_val_one] at hs' ⊢
  norm_num at hs' ⊢
  linarith

end Sg.Props
