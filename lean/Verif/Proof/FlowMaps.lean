import Verif.Proof.AffineInv
import Verif.Spec.Whitney
import Verif.Props.QuadFlows
/-
What affine maps, and other numberings of the nodes, do to the field in a parallelogram and to segments clear of the tolerance.
-/
namespace Sg.Plane
open Sg.Spec Sg.Props

variable (φ : AffineMap2)

theorem insideParams_image (h : φ.det ≠ 0) (q : Fin 4 → P2) (a b : P2) :
    insideParams (fun k => φ.app (q k)) (φ.app a) (φ.app b) = insideParams q a b := by
  ext t
  simp only [insideParams, Set.mem_ofPred_eq]
  rw [← app_line]
  refine and_congr_right fun _ => and_congr_right fun _ => ⟨mem_region_image φ h q _, fun hp => ?_⟩
  rw [region_image]
  exact ⟨_, hp, rfl⟩

theorem lineClearOfSides_image (h : φ.det ≠ 0) (a b c p : P2) (hc : LineClearOfSides a b c p) :
    LineClearOfSides (φ.app a) (φ.app b) (φ.app c) (φ.app p) := by
  intro hne u v w h1 h2
  rw [area2_image] at hne
  refine hc (right_ne_zero_of_mul hne) u v w h1 (app_inj φ h ?_)
  rw [app_combo3 φ _ _ _ _ _ _ h1]; exact h2

theorem lineClearCrossing_image (h : φ.det ≠ 0) (a0 a1 b0 b1 : P2) (hc : LineClearCrossing a0 a1 b0 b1) :
    LineClearCrossing (φ.app a0) (φ.app a1) (φ.app b0) (φ.app b1) := by
  intro h1 s t h2
  rw [cross_image] at h1
  refine hc (fun hz => h1 (by rw [hz, mul_zero])) s t (app_inj φ h ?_)
  rw [app_line, app_line]; exact h2

theorem clearLine_image (h : φ.det ≠ 0) (q : Fin 4 → P2) (a b : P2) (hc : ClearLine q a b) :
    ClearLine (fun k => φ.app (q k)) (φ.app a) (φ.app b) :=
  ⟨⟨lineClearOfSides_image φ h _ _ _ _ hc.start.1, lineClearOfSides_image φ h _ _ _ _ hc.start.2⟩,
   ⟨lineClearOfSides_image φ h _ _ _ _ hc.finish.1, lineClearOfSides_image φ h _ _ _ _ hc.finish.2⟩,
   fun i => lineClearCrossing_image φ h _ _ _ _ (hc.edges i),
   fun i ⟨h1, h2⟩ => hc.proper i ⟨app_inj φ h h1, app_inj φ h h2⟩⟩

theorem parallelogram_image (h : φ.det ≠ 0) (q : Fin 4 → P2) (hq : Parallelogram q) : Parallelogram fun k => φ.app (q k) := by
  refine ⟨?_, ?_, ?_⟩
  · simp only [AffineMap2.app]; linear_combination φ.a * hq.fst + φ.b * hq.snd
  · simp only [AffineMap2.app]; linear_combination φ.c * hq.fst + φ.d * hq.snd
  · have e := mul_ne_zero h hq.area
    intro hz
    refine e ?_
    rw [← hz]
    simp only [AffineMap2.app, AffineMap2.det]; ring

theorem cellVector_image (h : φ.det ≠ 0) (q : Fin 4 → P2) (p r : P2) :
    cellVector (fun k => φ.app (q k)) (φ.app p - φ.app r) = cellVector q (p - r) := by
  have e (u v w z : ℝ) : (φ.a * u + φ.b * v) * (φ.c * w + φ.d * z) - (φ.c * u + φ.d * v) * (φ.a * w + φ.b * z) = φ.det * (u * z - v * w) := by
    unfold AffineMap2.det; ring
  have e1 (s t : P2) : (φ.app s - φ.app t).1 = φ.a * (s - t).1 + φ.b * (s - t).2 := by simp [AffineMap2.app]; ring
  have e2 (s t : P2) : (φ.app s - φ.app t).2 = φ.c * (s - t).1 + φ.d * (s - t).2 := by simp [AffineMap2.app]; ring
  simp only [cellVector, e1, e2, e]
  rw [mul_div_mul_left _ _ h, mul_div_mul_left _ _ h]

theorem fieldIntegral_image (h : φ.det ≠ 0) (q : Fin 4 → P2) (E : Fin 4 → ℝ) (a b : P2) :
    fieldIntegral (fun k => φ.app (q k)) E (φ.app a) (φ.app b) = fieldIntegral q E a b := by
  unfold fieldIntegral
  rw [insideParams_image φ h]
  congr 1
  funext t
  unfold edgeField
  rw [← app_line]
  simp only [cellVector_image φ h]

/-! ### Axes exchanged -/

/-- The cell with the axes exchanged. -/
def crossed (q : Fin 4 → P2) (c : Fin 4) : P2 := q (-c)

/-- The numbers on the edges with the axes exchanged. -/
def crossedData (E : Fin 4 → ℝ) (e : Fin 4) : ℝ := E (e + 2)

theorem region_crossed (q : Fin 4 → P2) : quadRegion (crossed q) = quadRegion q := by
  unfold quadRegion
  congr 1
  exact (Equiv.neg (Fin 4)).surjective.range_comp q

theorem insideParams_crossed (q : Fin 4 → P2) (a b : P2) : insideParams (crossed q) a b = insideParams q a b := by
  unfold insideParams; rw [region_crossed]

theorem parallelogram_crossed {q : Fin 4 → P2} (hq : Parallelogram q) : Parallelogram (crossed q) := by
  have h1 := hq.fst
  have h2 := hq.snd
  refine ⟨?_, ?_, ?_⟩
  · change (q 0).1 + (q 2).1 = (q 3).1 + (q 1).1; linarith
  · change (q 0).2 + (q 2).2 = (q 3).2 + (q 1).2; linarith
  · intro hz
    change ((q 3).1 - (q 0).1) * ((q 1).2 - (q 0).2) - ((q 1).1 - (q 0).1) * ((q 3).2 - (q 0).2) = 0 at hz
    exact hq.area (by linarith)

theorem cellVector_crossed (q : Fin 4 → P2) (w : P2) : cellVector (crossed q) w = (cellVector q w).swap := by
  have c1 : crossed q 1 = q 3 := rfl
  have c3 : crossed q 3 = q 1 := rfl
  have c0 : crossed q 0 = q 0 := rfl
  simp only [cellVector, c0, c1, c3, Prod.swap]
  ext
  · change _ / _ = _ / _
    rw [← neg_div_neg_eq]
    congr 1 <;> ring
  · change _ / _ = _ / _
    rw [← neg_div_neg_eq]
    congr 1 <;> ring

theorem fieldIntegral_crossed (q : Fin 4 → P2) (E : Fin 4 → ℝ) (a b : P2) :
    fieldIntegral (crossed q) (crossedData E) a b = fieldIntegral q E a b := by
  unfold fieldIntegral
  rw [insideParams_crossed]
  congr 1
  funext t
  have c0 : crossed q 0 = q 0 := rfl
  simp only [edgeField, c0, cellVector_crossed, Prod.fst_swap, Prod.snd_swap]
  change ((1 - _) * E 2 + _ * E 3) * _ + ((1 - _) * E 0 + _ * E 1) * _ = _
  ring

/-! ### First axis turned round -/

/-- The cell with the first axis turned round. -/
def turned (q : Fin 4 → P2) (c : Fin 4) : P2 := q (1 - c)

/-- The numbers on the edges with the first axis turned round. -/
def turnedData (E : Fin 4 → ℝ) (e : Fin 4) : ℝ :=
  match e with
  | 0 => -E 0
  | 1 => -E 1
  | 2 => E 3
  | 3 => E 2

theorem region_turned (q : Fin 4 → P2) : quadRegion (turned q) = quadRegion q := by
  unfold quadRegion
  congr 1
  exact (Equiv.subLeft (1 : Fin 4)).surjective.range_comp q

theorem insideParams_turned (q : Fin 4 → P2) (a b : P2) : insideParams (turned q) a b = insideParams q a b := by
  unfold insideParams; rw [region_turned]

theorem parallelogram_turned {q : Fin 4 → P2} (hq : Parallelogram q) : Parallelogram (turned q) := by
  have h1 := hq.fst
  have h2 := hq.snd
  refine ⟨?_, ?_, ?_⟩
  · change (q 1).1 + (q 3).1 = (q 0).1 + (q 2).1; linarith
  · change (q 1).2 + (q 3).2 = (q 0).2 + (q 2).2; linarith
  · intro hz
    change ((q 0).1 - (q 1).1) * ((q 2).2 - (q 1).2) - ((q 2).1 - (q 1).1) * ((q 0).2 - (q 1).2) = 0 at hz
    have e1 : (q 2).1 - (q 1).1 = (q 3).1 - (q 0).1 := by linarith
    have e2 : (q 2).2 - (q 1).2 = (q 3).2 - (q 0).2 := by linarith
    rw [e1, e2] at hz
    exact hq.area (by linarith)

theorem cellVector_turned {q : Fin 4 → P2} (hq : Parallelogram q) (w : P2) :
    cellVector (turned q) w = (-(cellVector q w).1, (cellVector q w).2) := by
  have c1 : turned q 1 = q 0 := rfl
  have c3 : turned q 3 = q 2 := rfl
  have c0 : turned q 0 = q 1 := rfl
  have e : q 2 - q 1 = q 3 - q 0 := by
    have h1 := hq.fst
    have h2 := hq.snd
    ext <;> simp <;> linarith
  have e' : q 0 - q 1 = -(q 1 - q 0) := by abel
  simp only [cellVector, c0, c1, c3, e, e', Prod.fst_neg, Prod.snd_neg]
  ext
  · change _ / _ = -(_ / _)
    rw [← neg_div, ← neg_div_neg_eq]
    congr 1; ring
  · change _ / _ = _ / _
    rw [← neg_div_neg_eq]
    congr 1 <;> ring

theorem cellVector_shift {q : Fin 4 → P2} (hq : Parallelogram q) (p : P2) :
    cellVector q (p - q 1) = ((cellVector q (p - q 0)).1 - 1, (cellVector q (p - q 0)).2) := by
  have hd : (q 1 - q 0).1 * (q 3 - q 0).2 - (q 1 - q 0).2 * (q 3 - q 0).1 ≠ 0 := by
    intro hz
    refine hq.area ?_
    rw [← hz]; simp; ring
  simp only [cellVector]
  ext
  · change _ / _ = _ / _ - 1
    rw [div_sub_one hd]
    congr 1
    simp; ring
  · change _ / _ = _ / _
    congr 1
    simp; ring

theorem fieldIntegral_turned {q : Fin 4 → P2} (hq : Parallelogram q) (E : Fin 4 → ℝ) (a b : P2) :
    fieldIntegral (turned q) (turnedData E) a b = fieldIntegral q E a b := by
  unfold fieldIntegral
  rw [insideParams_turned]
  congr 1
  funext t
  have c0 : turned q 0 = q 1 := rfl
  simp only [edgeField, c0, cellVector_turned hq, cellVector_shift hq, turnedData]
  ring

end Sg.Plane
