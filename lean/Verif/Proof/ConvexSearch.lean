import Verif.Proof.TrapSearch
import Verif.Spec.FairQuad
import Mathlib.Analysis.Complex.Norm
/-
The index search in a convex quadrilateral.
-/
namespace Sg.Fair
open Sg Sg.LinearSolve Sg.Triangulate Sg.QuadIntersect Sg.FindPoint Sg.QuadFlows Sg.Spec Sg.Props Sg.Curved Sg.FlowInterp Sg.Plane Sg.Trap

def cr (p r : P2) : ℝ := p.1 * r.2 - p.2 * r.1
noncomputable def nrm (p : P2) : ℝ := Real.sqrt (p.1 ^ 2 + p.2 ^ 2)

theorem nrm_nonneg (p : P2) : 0 ≤ nrm p := Real.sqrt_nonneg _

theorem nrm_norm (p : P2) : nrm p = ‖(⟨p.1, p.2⟩ : ℂ)‖ := by
  rw [Complex.norm_eq_sqrt_sq_add_sq]; rfl

theorem nrm_add (p r : P2) : nrm (p + r) ≤ nrm p + nrm r := by
  rw [nrm_norm, nrm_norm, nrm_norm]
  exact norm_add_le (⟨p.1, p.2⟩ : ℂ) ⟨r.1, r.2⟩

theorem nrm_smul (c : ℝ) (p : P2) : nrm (c • p) = |c| * nrm p := by
  unfold nrm
  rw [← Real.sqrt_sq_eq_abs, ← Real.sqrt_mul (sq_nonneg c)]
  congr 1
  simp only [Prod.smul_fst, Prod.smul_snd, smul_eq_mul]; ring

theorem cr_le (p r : P2) : |cr p r| ≤ nrm p * nrm r := by
  unfold cr nrm
  rw [← Real.sqrt_mul (by positivity)]
  apply Real.abs_le_sqrt
  nlinarith [sq_nonneg (p.1 * r.1 + p.2 * r.2)]

theorem apart_nrm (p r : P2) : apart p r = nrm (p - r) := rfl

section
variable (q : Quad ℝ)

def wv : P2 := q 0 - q 1 + q 2 - q 3
def Uq (x : Fin 2 → ℝ) : P2 := (q 1 - q 0) + x 1 • wv q
def Vq (x : Fin 2 → ℝ) : P2 := (q 3 - q 0) + x 0 • wv q
def dl (x : Fin 2 → ℝ) : ℝ := cr (Uq q x) (Vq q x)
def al : ℝ := cr (q 1 - q 0) (wv q)
def be : ℝ := cr (wv q) (q 3 - q 0)

theorem at_eq (x : Fin 2 → ℝ) : at_ q x = q 0 + x 0 • (q 1 - q 0) + x 1 • (q 3 - q 0) + (x 0 * x 1) • wv q := by
  ext
  · simp only [at_, bilin, wv, Prod.fst_add, Prod.fst_sub, Prod.smul_fst, smul_eq_mul]; ring
  · simp only [at_, bilin, wv, Prod.snd_add, Prod.snd_sub, Prod.smul_snd, smul_eq_mul]; ring

theorem dl_eq (x : Fin 2 → ℝ) : dl q x = cr (q 1 - q 0) (q 3 - q 0) + al q * x 0 + be q * x 1 := by
  simp only [dl, al, be, cr, Uq, Vq, Prod.fst_add, Prod.snd_add, Prod.smul_fst, Prod.smul_snd, smul_eq_mul]; ring

/-- The determinant as a mean of those at the corners. -/
theorem dl_mean (x : Fin 2 → ℝ) : dl q x = (1 - x 0) * (1 - x 1) * area2 (q 3) (q 0) (q 1) + x 0 * (1 - x 1) * area2 (q 0) (q 1) (q 2) +
    x 0 * x 1 * area2 (q 1) (q 2) (q 3) + (1 - x 0) * x 1 * area2 (q 2) (q 3) (q 0) := by
  simp only [dl, cr, Uq, Vq, wv, area2, Prod.fst_add, Prod.snd_add, Prod.fst_sub, Prod.snd_sub, Prod.smul_fst, Prod.smul_snd, smul_eq_mul]
  ring

theorem comp_sub (p r : P2) (i : Fin 2) : comp (p - r) i = comp p i - comp r i := by fin_cases i <;> rfl

theorem jac_U (x : Fin 2 → ℝ) (hx : InGrid (fun _ => 2) x) (i : Fin 2) : jac (fun _ => 2) (nodes q) x i 0 = comp (Uq q x) i := by
  refine jac_col x hx i 0 _ fun y hy => ?_
  rw [at_eq, at_eq, hy 1 (by decide)]
  simp only [Uq, comp_add, comp_smul]
  ring

theorem jac_V (x : Fin 2 → ℝ) (hx : InGrid (fun _ => 2) x) (i : Fin 2) : jac (fun _ => 2) (nodes q) x i 1 = comp (Vq q x) i := by
  refine jac_col x hx i 1 _ fun y hy => ?_
  rw [at_eq, at_eq, hy 0 (by decide)]
  simp only [Vq, comp_add, comp_smul]
  ring

theorem jac_det (x : Fin 2 → ℝ) (hx : InGrid (fun _ => 2) x) : (jac (fun _ => 2) (nodes q) x).det = dl q x := by
  rw [Matrix.det_fin_two, jac_U q x hx, jac_U q x hx, jac_V q x hx, jac_V q x hx]
  simp only [comp, dl, cr]
  ring

/-- One step, before the indices are brought back. -/
theorem change_eq (x t : Fin 2 → ℝ) (hx : InGrid (fun _ => 2) x) (ht : InGrid (fun _ => 2) t) (h : dl q x ≠ 0) :
    x 0 + change (fun _ => 2) (nodes q) t x 0 = t 0 + be q * (x 0 - t 0) * (x 1 - t 1) / dl q x ∧
    x 1 + change (fun _ => 2) (nodes q) t x 1 = t 1 + al q * (x 0 - t 0) * (x 1 - t 1) / dl q x := by
  have hdet : (jac (fun _ => 2) (nodes q) x).det ≠ 0 := by rw [jac_det q x hx]; exact h
  have hu : IsUnit (jac (fun _ => 2) (nodes q) x) := (Matrix.isUnit_iff_isUnit_det _).2 (isUnit_iff_ne_zero.2 hdet)
  set c := (x 0 - t 0) * (x 1 - t 1) / dl q x with hc
  set u : Fin 2 → ℝ := fun j => if j = 0 then t 0 - x 0 + be q * c else t 1 - x 1 + al q * c with hud
  have u0 : u 0 = t 0 - x 0 + be q * c := by simp [hud]
  have u1 : u 1 = t 1 - x 1 + al q * c := by simp [hud]
  have key : (jac (fun _ => 2) (nodes q) x).mulVec u = fun i => gridPlace (fun _ => 2) (nodes q) t i - gridPlace (fun _ => 2) (nodes q) x i := by
    funext i
    rw [place_eq q ht, place_eq q hx, Matrix.mulVec, dotProduct, Fin.sum_univ_two, jac_U q x hx, jac_V q x hx, u0, u1, at_eq, at_eq]
    have hcd : c * dl q x = (x 0 - t 0) * (x 1 - t 1) := by rw [hc]; field_simp
    have hw : be q * comp (Uq q x) i + al q * comp (Vq q x) i = dl q x * comp (wv q) i := by
      rw [dl_eq]
      fin_cases i
      · simp only [Fin.zero_eta, comp, Uq, Vq, al, be, cr, Prod.fst_add, Prod.smul_fst, smul_eq_mul]; ring
      · simp only [Fin.mk_one, comp, Uq, Vq, al, be, cr, Prod.snd_add, Prod.smul_snd, smul_eq_mul]; ring
    have e1 : comp (Uq q x) i = comp (q 1 - q 0) i + x 1 * comp (wv q) i := by simp only [Uq, comp_add, comp_smul]
    have e2 : comp (Vq q x) i = comp (q 3 - q 0) i + x 0 * comp (wv q) i := by simp only [Vq, comp_add, comp_smul]
    simp only [comp_add, comp_smul]
    linear_combination c * hw + comp (wv q) i * hcd + (t 0 - x 0) * e1 + (t 1 - x 1) * e2
  have := Matrix.mulVec_injective_of_isUnit hu (key.trans (change_spec hdet).symm)
  rw [← this, u0, u1, hc]
  constructor <;> ring

theorem truncate_between {t v : ℝ} (h0 : 0 ≤ t) (h1 : t ≤ 1) : ∃ l : ℝ, 0 ≤ l ∧ l ≤ 1 ∧ truncateIndex 0 2 (t + v) = t + l * v := by
  have e : truncateIndex 0 2 (t + v) = min (max (t + v) 0) 1 := by
    unfold truncateIndex
    simp only [ne_eq, not_true_eq_false, if_false]
    norm_num only [Nat.cast_one]
    split_ifs with h1 h2 h2
    · linarith
    · rw [max_eq_right (by linarith), min_eq_left zero_le_one]
    · rw [max_eq_left (by linarith), min_eq_right h2.le]
    · rw [max_eq_left (by linarith), min_eq_left (by linarith)]
  rw [e]
  rcases le_or_gt (t + v) 0 with h | h
  · rw [max_eq_right h, min_eq_left zero_le_one]
    rcases h0.eq_or_lt with rfl | hp
    · exact ⟨0, le_rfl, zero_le_one, by simp⟩
    · have hv : v < 0 := by linarith
      refine ⟨-t / v, div_nonneg_of_nonpos (by linarith) hv.le, ?_, ?_⟩
      · rw [div_le_one_of_neg hv]; linarith
      · rw [div_mul_cancel₀ _ hv.ne]; ring
  · rw [max_eq_left h.le]
    rcases le_or_gt (t + v) 1 with h' | h'
    · rw [min_eq_left h']
      exact ⟨1, zero_le_one, le_rfl, by ring⟩
    · rw [min_eq_right h'.le]
      have hv : 0 < v := by linarith
      refine ⟨(1 - t) / v, div_nonneg (by linarith) hv.le, ?_, ?_⟩
      · rw [div_le_one hv]; linarith
      · rw [div_mul_cancel₀ _ hv.ne']; ring

/-- One step. -/
theorem newton_step (x t : Fin 2 → ℝ) (hx : InCell x) (ht : InCell t) (h : dl q x ≠ 0) :
    ∃ l0 l1 : ℝ, 0 ≤ l0 ∧ l0 ≤ 1 ∧ 0 ≤ l1 ∧ l1 ≤ 1 ∧
      newton (fun _ => 2) (nodes q) t x 0 - t 0 = l0 * (be q * (x 0 - t 0) * (x 1 - t 1) / dl q x) ∧
      newton (fun _ => 2) (nodes q) t x 1 - t 1 = l1 * (al q * (x 0 - t 0) * (x 1 - t 1) / dl q x) := by
  obtain ⟨c0, c1⟩ := change_eq q x t (inCell_inGrid hx) (inCell_inGrid ht) h
  obtain ⟨l0, a0, b0, e0⟩ := truncate_between (v := be q * (x 0 - t 0) * (x 1 - t 1) / dl q x) (ht 0).1 (ht 0).2
  obtain ⟨l1, a1, b1, e1⟩ := truncate_between (v := al q * (x 0 - t 0) * (x 1 - t 1) / dl q x) (ht 1).1 (ht 1).2
  refine ⟨l0, l1, a0, b0, a1, b1, ?_, ?_⟩
  · unfold newton; rw [c0, e0]; ring
  · unfold newton; rw [c1, e1]; ring

/-- What the search needs of the quadrilateral. -/
structure Mild : Prop where
  ne : ∀ t, InCell t → dl q t ≠ 0
  ratio : ∀ x t, InCell x → InCell t → 1 / 16 ≤ dl q x / dl q t ∧ dl q x / dl q t ≤ 16
  angle : ∀ t, InCell t → nrm (Uq q t) * nrm (Vq q t) ≤ 2 * |dl q t|
  size : ∀ t, InCell t → nrm (Uq q t) ≤ 100 ∧ nrm (Vq q t) ≤ 100

/-- The two numbers that say how far `x` is from `t`. -/
noncomputable def fa (t x : Fin 2 → ℝ) : ℝ := al q * (x 0 - t 0) / dl q t
noncomputable def fb (t x : Fin 2 → ℝ) : ℝ := be q * (x 1 - t 1) / dl q t

noncomputable def fq (t x : Fin 2 → ℝ) : ℝ :=
  |x 0 - t 0| * (1 + fb q t x) * nrm (Uq q t) + |x 1 - t 1| * (1 + fa q t x) * nrm (Vq q t)

variable {q}

theorem dl_ratio {t : Fin 2 → ℝ} (h : dl q t ≠ 0) (x : Fin 2 → ℝ) : dl q x / dl q t = 1 + fa q t x + fb q t x := by
  unfold fa fb
  have := dl_eq q x
  have := dl_eq q t
  field_simp
  linarith

theorem fa_range (h : Mild q) {t x : Fin 2 → ℝ} (ht : InCell t) (hx : InCell x) :
    (1 / 16 ≤ 1 + fa q t x ∧ 1 + fa q t x ≤ 16) ∧ (1 / 16 ≤ 1 + fb q t x ∧ 1 + fb q t x ≤ 16) ∧
    (1 / 16 ≤ 1 + fa q t x + fb q t x ∧ 1 + fa q t x + fb q t x ≤ 16) := by
  have hn := h.ne t ht
  refine ⟨?_, ?_, ?_⟩
  · have := h.ratio (fun k => if k = 0 then x 0 else t 1) t (fun k => by fin_cases k <;> simp <;> [exact hx 0; exact ht 1]) ht
    rw [dl_ratio hn] at this
    simpa [fa, fb] using this
  · have := h.ratio (fun k => if k = 0 then t 0 else x 1) t (fun k => by fin_cases k <;> simp <;> [exact ht 0; exact hx 1]) ht
    rw [dl_ratio hn] at this
    simpa [fa, fb] using this
  · have := h.ratio x t hx ht
    rwa [dl_ratio hn] at this

/-- One step, in these numbers. -/
theorem step_numbers (h : Mild q) {t x : Fin 2 → ℝ} (ht : InCell t) (hx : InCell x) :
    ∃ l0 l1 : ℝ, 0 ≤ l0 ∧ l0 ≤ 1 ∧ 0 ≤ l1 ∧ l1 ≤ 1 ∧
      newton (fun _ => 2) (nodes q) t x 0 - t 0 = l0 * ((x 0 - t 0) * fb q t x / (1 + fa q t x + fb q t x)) ∧
      newton (fun _ => 2) (nodes q) t x 1 - t 1 = l1 * ((x 1 - t 1) * fa q t x / (1 + fa q t x + fb q t x)) ∧
      fa q t (newton (fun _ => 2) (nodes q) t x) = l0 * (fa q t x * fb q t x / (1 + fa q t x + fb q t x)) ∧
      fb q t (newton (fun _ => 2) (nodes q) t x) = l1 * (fa q t x * fb q t x / (1 + fa q t x + fb q t x)) := by
  have hn := h.ne t ht
  have hnx := h.ne x hx
  obtain ⟨l0, l1, a0, b0, a1, b1, e0, e1⟩ := newton_step q x t hx ht hnx
  have hr := dl_ratio hn x
  have e0' : newton (fun _ => 2) (nodes q) t x 0 - t 0 = l0 * ((x 0 - t 0) * fb q t x / (1 + fa q t x + fb q t x)) := by
    rw [e0, ← hr]; unfold fb; field_simp
  have e1' : newton (fun _ => 2) (nodes q) t x 1 - t 1 = l1 * ((x 1 - t 1) * fa q t x / (1 + fa q t x + fb q t x)) := by
    rw [e1, ← hr]; unfold fa; field_simp
  refine ⟨l0, l1, a0, b0, a1, b1, e0', e1', ?_, ?_⟩
  · rw [show fa q t (newton (fun _ => 2) (nodes q) t x) = al q * (newton (fun _ => 2) (nodes q) t x 0 - t 0) / dl q t from rfl, e0']
    rw [show fa q t x = al q * (x 0 - t 0) / dl q t from rfl]
    ring
  · rw [show fb q t (newton (fun _ => 2) (nodes q) t x) = be q * (newton (fun _ => 2) (nodes q) t x 1 - t 1) / dl q t from rfl, e1']
    rw [show fb q t x = be q * (x 1 - t 1) / dl q t from rfl]
    ring

/-- From the second step on both are positive. -/
def Good (q : Quad ℝ) (t x : Fin 2 → ℝ) (r : ℝ) : Prop := 0 ≤ fa q t x ∧ 0 ≤ fb q t x ∧ fa q t x ≤ r ∧ fb q t x ≤ r

theorem good_second {a b l0 l1 : ℝ} (ha : 0 ≤ a ∧ 0 ≤ b ∨ a ≤ 0 ∧ b ≤ 0) (h1 : 1 / 16 ≤ 1 + a + b) (h2 : 1 + a + b ≤ 16)
    (g0 : 0 ≤ l0) (g1 : l0 ≤ 1) (k0 : 0 ≤ l1) (k1 : l1 ≤ 1) :
    0 ≤ l0 * (a * b / (1 + a + b)) ∧ 0 ≤ l1 * (a * b / (1 + a + b)) ∧ l0 * (a * b / (1 + a + b)) ≤ 225 / 64 ∧ l1 * (a * b / (1 + a + b)) ≤ 225 / 64 := by
  have hp : 0 < 1 + a + b := by linarith
  have hab : 0 ≤ a * b := by
    rcases ha with h | h
    · exact mul_nonneg h.1 h.2
    · exact mul_nonneg_of_nonpos_of_nonpos h.1 h.2
  have hs : 0 ≤ a * b / (1 + a + b) := by positivity
  have hle : a * b / (1 + a + b) ≤ 225 / 64 := by
    rw [div_le_iff₀ hp]
    rcases ha with h | h
    · nlinarith [sq_nonneg (a - b), mul_nonneg (show 0 ≤ a + b by linarith [h.1, h.2]) (show 0 ≤ 15 - (a + b) by linarith)]
    · nlinarith [sq_nonneg (a - b), mul_nonneg (show 0 ≤ -(a + b) by linarith [h.1, h.2]) (show 0 ≤ 15 / 16 + (a + b) by linarith)]
  refine ⟨by positivity, by positivity, ?_, ?_⟩ <;> nlinarith

theorem good_first {a b l0 l1 : ℝ} (g0 : 0 ≤ l0) (k0 : 0 ≤ l1) :
    0 ≤ l0 * (a * b / (1 + a + b)) ∧ 0 ≤ l1 * (a * b / (1 + a + b)) ∨ l0 * (a * b / (1 + a + b)) ≤ 0 ∧ l1 * (a * b / (1 + a + b)) ≤ 0 := by
  rcases le_total 0 (a * b / (1 + a + b)) with h | h
  · exact .inl ⟨mul_nonneg g0 h, mul_nonneg k0 h⟩
  · exact .inr ⟨mul_nonpos_of_nonneg_of_nonpos g0 h, mul_nonpos_of_nonneg_of_nonpos k0 h⟩

theorem good_two (h : Mild q) {t d : Fin 2 → ℝ} (ht : InCell t) (hd : InCell d) :
    Good q t ((newton (fun _ => 2) (nodes q) t)^[2] d) (225 / 64) := by
  have h1c : InCell (newton (fun _ => 2) (nodes q) t d) := inGrid_inCell (newton_inGrid goodDims2 t d)
  obtain ⟨l0, l1, a0, -, a1, -, -, -, ea, eb⟩ := step_numbers h ht hd
  obtain ⟨m0, m1, b0, b0', b1, b1', -, -, fa', fb'⟩ := step_numbers h ht h1c
  have hs := good_first (a := fa q t d) (b := fb q t d) a0 a1
  rw [← ea, ← eb] at hs
  have := good_second hs (fa_range h ht h1c).2.2.1 (fa_range h ht h1c).2.2.2 b0 b0' b1 b1'
  rw [← fa', ← fb'] at this
  exact this

theorem good_next (h : Mild q) {t x : Fin 2 → ℝ} (ht : InCell t) (hx : InCell x) {r : ℝ} (hg : Good q t x r) :
    Good q t (newton (fun _ => 2) (nodes q) t x) (r ^ 2 / (1 + 2 * r)) := by
  obtain ⟨l0, l1, a0, b0, a1, b1, -, -, ea, eb⟩ := step_numbers h ht hx
  obtain ⟨p1, p2, p3, p4⟩ := hg
  set a := fa q t x
  set b := fb q t x
  have hr : 0 ≤ r := p1.trans p3
  have hs : 0 ≤ a * b / (1 + a + b) := by positivity
  have hle : a * b / (1 + a + b) ≤ r ^ 2 / (1 + 2 * r) := by
    rw [div_le_div_iff₀ (by positivity) (by positivity)]
    nlinarith [mul_nonneg p1 p2, mul_nonneg (sub_nonneg.2 p3) p2, mul_nonneg (sub_nonneg.2 p4) p1, mul_nonneg (mul_nonneg hr p1) (sub_nonneg.2 p4),
      mul_nonneg (mul_nonneg hr p2) (sub_nonneg.2 p3), mul_nonneg (sub_nonneg.2 p3) (sub_nonneg.2 p4), mul_nonneg hr (sub_nonneg.2 p4),
      mul_nonneg hr (sub_nonneg.2 p3)]
  unfold Good
  rw [ea, eb]
  refine ⟨by positivity, by positivity, ?_, ?_⟩ <;> nlinarith

theorem fq_next (h : Mild q) {t x : Fin 2 → ℝ} (ht : InCell t) (hx : InCell x) {r : ℝ} (hg : Good q t x r) :
    fq q t (newton (fun _ => 2) (nodes q) t x) ≤ 1 / 4 * fq q t x ∧ fq q t (newton (fun _ => 2) (nodes q) t x) ≤ r * fq q t x := by
  obtain ⟨l0, l1, a0, b0, a1, b1, e0, e1, ea, eb⟩ := step_numbers h ht hx
  obtain ⟨p1, p2, p3, p4⟩ := hg
  unfold fq
  rw [ea, eb, e0, e1]
  set a := fa q t x
  set b := fb q t x
  have hr : 0 ≤ r := p1.trans p3
  have hp : 0 < 1 + a + b := by linarith
  have hs : 0 ≤ a * b / (1 + a + b) := by positivity
  have key : ∀ (e c c' l m n : ℝ), 0 ≤ c → 0 ≤ c' → 0 ≤ l → l ≤ 1 → 0 ≤ m → m ≤ 1 → 0 ≤ n → c ≤ r → c' + c = a + b → c' * c = a * b →
      |l * (e * c / (1 + a + b))| * (1 + m * (a * b / (1 + a + b))) * n ≤ 1 / 4 * (|e| * (1 + c) * n) ∧
      |l * (e * c / (1 + a + b))| * (1 + m * (a * b / (1 + a + b))) * n ≤ r * (|e| * (1 + c) * n) := by
    intro e c c' l m n hc hc' hl hl' hm hm' hn hcr hsum hprod
    have b1 : |l * (e * c / (1 + a + b))| ≤ |e| * (c / (1 + a + b)) := by
      rw [abs_mul, abs_of_nonneg hl, abs_div, abs_mul, abs_of_nonneg hc, abs_of_pos hp]
      have : 0 ≤ |e| * c / (1 + a + b) := by positivity
      calc l * (|e| * c / (1 + a + b)) ≤ 1 * (|e| * c / (1 + a + b)) := mul_le_mul_of_nonneg_right hl' this
        _ = _ := by ring
    have b2 : 1 + m * (a * b / (1 + a + b)) ≤ (1 + c) * ((1 + c') / (1 + a + b)) := by
      have e1 : (1 + c) * ((1 + c') / (1 + a + b)) = 1 + a * b / (1 + a + b) := by
        rw [← hprod]; field_simp; nlinarith
      rw [e1]
      nlinarith
    have b3 : |l * (e * c / (1 + a + b))| * (1 + m * (a * b / (1 + a + b))) * n ≤
        |e| * (c / (1 + a + b)) * ((1 + c) * ((1 + c') / (1 + a + b))) * n := by
      gcongr
    have b4 : c / (1 + a + b) * ((1 + c') / (1 + a + b)) ≤ 1 / 4 := by
      rw [div_mul_div_comm, div_le_iff₀ (by positivity)]
      have : 1 + a + b = c + (1 + c') := by linarith
      rw [this]
      nlinarith [sq_nonneg (c - (1 + c'))]
    have b5 : c / (1 + a + b) * ((1 + c') / (1 + a + b)) ≤ r := by
      rw [div_mul_div_comm, div_le_iff₀ (by positivity)]
      have : 1 + a + b = 1 + (c + c') := by linarith
      rw [this]
      have : c * (1 + c') ≤ r * (1 + c') := by gcongr
      have : r * (1 + c') ≤ r * ((1 + (c + c')) * (1 + (c + c'))) := by
        apply mul_le_mul_of_nonneg_left _ hr
        nlinarith [mul_nonneg hc hc', sq_nonneg (c + c')]
      linarith
    have hpos : 0 ≤ |e| * (1 + c) * n := by positivity
    constructor
    · refine b3.trans ?_
      calc _ = (c / (1 + a + b) * ((1 + c') / (1 + a + b))) * (|e| * (1 + c) * n) := by ring
        _ ≤ _ := mul_le_mul_of_nonneg_right b4 hpos
    · refine b3.trans ?_
      calc _ = (c / (1 + a + b) * ((1 + c') / (1 + a + b))) * (|e| * (1 + c) * n) := by ring
        _ ≤ _ := mul_le_mul_of_nonneg_right b5 hpos
  have k0 := key (x 0 - t 0) b a l0 l1 (nrm (Uq q t)) p2 p1 a0 b0 a1 b1 (nrm_nonneg _) p4 rfl rfl
  have k1 := key (x 1 - t 1) a b l1 l0 (nrm (Vq q t)) p1 p2 a1 b1 a0 b0 (nrm_nonneg _) p3 (by ring) (by ring)
  constructor
  · linarith [k0.1, k1.1]
  · linarith [k0.2, k1.2]

theorem residual (h : Mild q) {t : Fin 2 → ℝ} (ht : InCell t) (x : Fin 2 → ℝ) :
    at_ q x - at_ q t = ((x 0 - t 0) * (1 + fb q t x)) • Uq q t + ((x 1 - t 1) * (1 + fa q t x)) • Vq q t := by
  have hn := h.ne t ht
  have hw : be q • Uq q t + al q • Vq q t = dl q t • wv q := by
    rw [dl_eq]
    ext
    · simp only [Uq, Vq, al, be, cr, Prod.fst_add, Prod.smul_fst, smul_eq_mul]; ring
    · simp only [Uq, Vq, al, be, cr, Prod.snd_add, Prod.smul_snd, smul_eq_mul]; ring
  have hw' : wv q = (be q / dl q t) • Uq q t + (al q / dl q t) • Vq q t := by
    rw [div_eq_inv_mul, div_eq_inv_mul, mul_smul, mul_smul, ← smul_add, hw, smul_smul, inv_mul_cancel₀ hn, one_smul]
  have e1 : at_ q x - at_ q t = (x 0 - t 0) • Uq q t + (x 1 - t 1) • Vq q t + ((x 0 - t 0) * (x 1 - t 1)) • wv q := by
    rw [at_eq, at_eq]
    unfold Uq Vq
    module
  rw [e1]
  rw [hw']
  unfold fa fb
  module

theorem residual_le (h : Mild q) {t x : Fin 2 → ℝ} (ht : InCell t) (hx : InCell x) : nrm (at_ q x - at_ q t) ≤ fq q t x := by
  rw [residual h ht]
  refine (nrm_add _ _).trans ?_
  obtain ⟨⟨a1, -⟩, ⟨b1, -⟩, -⟩ := fa_range h ht hx
  rw [nrm_smul, nrm_smul, abs_mul, abs_mul, abs_of_nonneg (show 0 ≤ 1 + fb q t x by linarith), abs_of_nonneg (show 0 ≤ 1 + fa q t x by linarith)]
  rfl

theorem residual_parts (h : Mild q) {t x : Fin 2 → ℝ} (ht : InCell t) (hx : InCell x) :
    0 < nrm (Uq q t) ∧ 0 < nrm (Vq q t) ∧ |x 0 - t 0| * (1 + fb q t x) * nrm (Uq q t) ≤ 2 * nrm (at_ q x - at_ q t) ∧
    |x 1 - t 1| * (1 + fa q t x) * nrm (Vq q t) ≤ 2 * nrm (at_ q x - at_ q t) := by
  obtain ⟨⟨a1, -⟩, ⟨b1, -⟩, -⟩ := fa_range h ht hx
  have hn := h.ne t ht
  have hd : |dl q t| ≤ nrm (Uq q t) * nrm (Vq q t) := cr_le _ _
  have hpos : 0 < |dl q t| := abs_pos.2 hn
  have hU : 0 < nrm (Uq q t) := by
    rcases (nrm_nonneg (Uq q t)).eq_or_lt with h | h
    · rw [← h, zero_mul] at hd; linarith
    · exact h
  have hV : 0 < nrm (Vq q t) := by
    rcases (nrm_nonneg (Vq q t)).eq_or_lt with h | h
    · rw [← h, mul_zero] at hd; linarith
    · exact h
  have hang := h.angle t ht
  set r := at_ q x - at_ q t with hr
  have hres := residual h ht x
  rw [← hr] at hres
  set A := (x 0 - t 0) * (1 + fb q t x) with hA
  set B := (x 1 - t 1) * (1 + fa q t x) with hB
  have c1 : cr r (Vq q t) = A * dl q t := by
    rw [hres]; simp only [cr, dl, Prod.fst_add, Prod.snd_add, Prod.smul_fst, Prod.smul_snd, smul_eq_mul]; ring
  have c2 : cr r (Uq q t) = -(B * dl q t) := by
    rw [hres]; simp only [cr, dl, Prod.fst_add, Prod.snd_add, Prod.smul_fst, Prod.smul_snd, smul_eq_mul]; ring
  have d1 := cr_le r (Vq q t)
  have d2 := cr_le r (Uq q t)
  rw [c1, abs_mul] at d1
  rw [c2, abs_neg, abs_mul] at d2
  have f1 : |A| * nrm (Uq q t) ≤ 2 * nrm r := by
    have : |A| * nrm (Uq q t) * nrm (Vq q t) ≤ 2 * nrm r * nrm (Vq q t) := by
      nlinarith [abs_nonneg A]
    exact le_of_mul_le_mul_right this hV
  have f2 : |B| * nrm (Vq q t) ≤ 2 * nrm r := by
    have : |B| * nrm (Vq q t) * nrm (Uq q t) ≤ 2 * nrm r * nrm (Uq q t) := by
      nlinarith [abs_nonneg B]
    exact le_of_mul_le_mul_right this hU
  have e1 : |A| = |x 0 - t 0| * (1 + fb q t x) := by rw [hA, abs_mul, abs_of_nonneg (show 0 ≤ 1 + fb q t x by linarith)]
  have e2 : |B| = |x 1 - t 1| * (1 + fa q t x) := by rw [hB, abs_mul, abs_of_nonneg (show 0 ≤ 1 + fa q t x by linarith)]
  rw [← e1, ← e2]
  exact ⟨hU, hV, f1, f2⟩

theorem le_residual (h : Mild q) {t x : Fin 2 → ℝ} (ht : InCell t) (hx : InCell x) : fq q t x ≤ 4 * nrm (at_ q x - at_ q t) := by
  obtain ⟨-, -, f1, f2⟩ := residual_parts h ht hx
  unfold fq
  linarith

/-! ### The whole search -/

theorem iter_cell (q : Quad ℝ) (t d : Fin 2 → ℝ) (hd : InCell d) (k : Nat) : InCell ((newton (fun _ => 2) (nodes q) t)^[k] d) :=
  inGrid_inCell (iterate_inGrid goodDims2 t d (inCell_inGrid hd) k)

theorem good_mono {t x : Fin 2 → ℝ} {r r' : ℝ} (h : Good q t x r) (hr : r ≤ r') : Good q t x r' :=
  ⟨h.1, h.2.1, h.2.2.1.trans hr, h.2.2.2.trans hr⟩

/-- Bounds of the numbers from the second step on. -/
noncomputable def rate : Nat → ℝ
  | 0 => 225 / 64
  | 1 => 31 / 20
  | 2 => 3 / 5
  | 3 => 17 / 100
  | 4 => 11 / 500
  | 5 => 1 / 2000
  | _ + 6 => 1 / 2000000

theorem rate_step (k : Nat) : rate k ^ 2 / (1 + 2 * rate k) ≤ rate (k + 1) := by
  rcases k with _ | _ | _ | _ | _ | _ | k <;> norm_num [rate]

theorem good_iter (h : Mild q) {t d : Fin 2 → ℝ} (ht : InCell t) (hd : InCell d) : ∀ k,
    Good q t ((newton (fun _ => 2) (nodes q) t)^[k + 2] d) (rate k)
  | 0 => good_two h ht hd
  | k + 1 => by
    rw [show k + 1 + 2 = (k + 2) + 1 by omega, Function.iterate_succ_apply']
    exact good_mono (good_next h ht (iter_cell q t d hd _) (good_iter h ht hd k)) (rate_step k)

theorem nearer (h : Mild q) {t d : Fin 2 → ℝ} (ht : InCell t) (hd : InCell d) (k : Nat) :
    nrm (at_ q ((newton (fun _ => 2) (nodes q) t)^[k + 3] d) - at_ q t) ≤ nrm (at_ q ((newton (fun _ => 2) (nodes q) t)^[k + 2] d) - at_ q t) := by
  have h1 := residual_le h ht (iter_cell q t d hd (k + 3))
  have h2 := le_residual h ht (iter_cell q t d hd (k + 2))
  have h3 := (fq_next h ht (iter_cell q t d hd _) (good_iter h ht hd k)).1
  rw [← Function.iterate_succ_apply' (newton (fun _ => 2) (nodes q) t)] at h3
  linarith

theorem nine (h : Mild q) {t d : Fin 2 → ℝ} (ht : InCell t) (hd : InCell d) :
    nrm (at_ q ((newton (fun _ => 2) (nodes q) t)^[9] d) - at_ q t) < 1 / 10 ^ 10 := by
  have h1 := residual_le h ht (iter_cell q t d hd 9)
  have st : ∀ k, fq q t ((newton (fun _ => 2) (nodes q) t)^[k + 3] d) ≤ min (1 / 4) (rate k) * fq q t ((newton (fun _ => 2) (nodes q) t)^[k + 2] d) := by
    intro k
    have h3 := fq_next h ht (iter_cell q t d hd _) (good_iter h ht hd k)
    rw [← Function.iterate_succ_apply' (newton (fun _ => 2) (nodes q) t)] at h3
    rcases min_choice (1 / 4) (rate k) with e | e <;> rw [e]
    · exact h3.1
    · exact h3.2
  have s0 := (st 0).trans (mul_le_mul_of_nonneg_right (min_le_left _ _) ?_)
  have s1 := (st 1).trans (mul_le_mul_of_nonneg_right (min_le_left _ _) ?_)
  have s2 := (st 2).trans (mul_le_mul_of_nonneg_right (min_le_left _ _) ?_)
  have s3 := (st 3).trans (mul_le_mul_of_nonneg_right (min_le_right _ _) ?_)
  have s4 := (st 4).trans (mul_le_mul_of_nonneg_right (min_le_right _ _) ?_)
  have s5 := (st 5).trans (mul_le_mul_of_nonneg_right (min_le_right _ _) ?_)
  have s6 := (st 6).trans (mul_le_mul_of_nonneg_right (min_le_right _ _) ?_)
  have q2 : fq q t ((newton (fun _ => 2) (nodes q) t)^[2] d) ≤ 3200 := by
    set x := (newton (fun _ => 2) (nodes q) t)^[2] d with hx
    have hxc : InCell x := iter_cell q t d hd 2
    obtain ⟨⟨a1, a2⟩, ⟨b1, b2⟩, -⟩ := fa_range h ht hxc
    obtain ⟨u, v⟩ := h.size t ht
    have e0 : |x 0 - t 0| ≤ 1 := by rw [abs_le]; constructor <;> linarith [(hxc 0).1, (hxc 0).2, (ht 0).1, (ht 0).2]
    have e1 : |x 1 - t 1| ≤ 1 := by rw [abs_le]; constructor <;> linarith [(hxc 1).1, (hxc 1).2, (ht 1).1, (ht 1).2]
    have hU := nrm_nonneg (Uq q t)
    have hV := nrm_nonneg (Vq q t)
    unfold fq
    have k0 : |x 0 - t 0| * (1 + fb q t x) * nrm (Uq q t) ≤ 1 * 16 * 100 := by
      gcongr
      all_goals linarith
    have k1 : |x 1 - t 1| * (1 + fa q t x) * nrm (Vq q t) ≤ 1 * 16 * 100 := by
      gcongr
      all_goals linarith
    linarith
  simp only [rate] at s3 s4 s5 s6
  clear st
  generalize hF : (fun k => fq q t ((newton (fun _ => 2) (nodes q) t)^[k] d)) = F
  have hF' : ∀ k, fq q t ((newton (fun _ => 2) (nodes q) t)^[k] d) = F k := fun k => by rw [← hF]
  rw [hF'] at h1 s0 s1 s2 s3 s4 s5 s6 q2
  rw [hF'] at s0 s1 s2 s3 s4 s5 s6
  norm_num only at s0 s1 s2 s3 s4 s5 s6
  norm_num only
  linarith
  all_goals exact (nrm_nonneg _).trans (residual_le h ht (iter_cell q t d hd _))

/-- A search in the quadrilateral for a point of it succeeds. -/
theorem Mild.search (h : Mild q) {g : Gels ℝ} (hg : GelsContract g) {f : Finder ℝ 2} (hf : HasQuad q f) {t : Fin 2 → ℝ} (ht : InCell t) :
    ∃ x f', findIndices g f (at_ q t) = .ok (1, x, f') := by
  have htg : InGrid (fun _ => 2) t := inCell_inGrid ht
  set d : Fin 2 → ℝ := fun _ => 1 / (1 + 1) with hd
  have hdc : InCell d := inGrid_inCell half_inGrid
  set s := f.reset d (comp (at_ q t)) with hs
  have hon : On (fun _ => 2) (nodes q) t s := on_quad hf _ t htg
  have dist : ∀ x, InCell x → distance (gridPlace (fun _ => 2) (nodes q) x) (gridPlace (fun _ => 2) (nodes q) t) = nrm (at_ q x - at_ q t) := by
    intro x hx
    rw [place_eq q (inCell_inGrid hx), place_eq q htg]
    unfold distance nrm
    rw [Fin.sum_univ_two]
    rfl
  have hfuel : s.fuelOf = 10 := by
    show (max f.nitermax 1).toNat = _
    rw [hf.nitermax]; rfl
  obtain ⟨s', k', e, -⟩ := loop_grid_max g hg (by norm_num) goodDims2 t d htg (inCell_inGrid hdc) _ rfl
    (fun k => by rw [jac_det q _ (inCell_inGrid (iter_cell q t d hdc k))]; exact h.ne _ (iter_cell q t d hdc k))
    (by
      intro k hk
      obtain ⟨k, rfl⟩ : ∃ j, k = j + 1 := ⟨k - 1, by omega⟩
      refine le_trans ?_ (le_max_right _ _)
      rw [dist _ (iter_cell q t d hdc _), dist _ (iter_cell q t d hdc _)]
      exact nearer h ht hdc k)
    9 10 (by norm_num) (flowTol : ℝ) (by
      rw [dist _ (iter_cell q t d hdc _)]
      have e3 : (flowTol : ℝ) = 1 / 10 ^ 10 := by unfold flowTol; norm_num
      rw [e3]
      exact nine h ht hdc) 9 0 10 s (by omega) (by omega) (by omega) hon rfl rfl hf.nitermax hf.tolpos rfl (by omega)
  refine ⟨s'.dIndices, s', ?_⟩
  unfold findIndices
  simp only [bind, Except.bind, pure, Except.pure]
  rw [← hd, ← hs, hfuel, e]

end
end Sg.Fair
