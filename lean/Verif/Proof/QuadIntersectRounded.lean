import Verif.Spec.RoundedQuad
import Verif.Proof.QuadIntersectExact
/-
The tests of `SgQuadIntersect_type` in rounded arithmetic, with a backward stable solver.
-/
namespace Sg.QuadIntersect
open Sg Sg.LinearSolve Sg.Triangulate Sg.Spec Sg.Plane

/-! ### Two equations -/

theorem real_solve {A0 A1 A2 A3 b0 b1 x0 x1 y0 y1 S M β Δ u κ : ℝ} (hS : 0 < S) (h0 : |A0| ≤ S) (h1 : |A1| ≤ S) (h2 : |A2| ≤ S)
    (h3 : |A3| ≤ S) (hdet : Δ * S ^ 2 ≤ |A0 * A3 - A1 * A2|) (e0 : A0 * y0 + A1 * y1 = b0) (e1 : A2 * y0 + A3 * y1 = b1)
    (hy0 : |y0| ≤ M) (hy1 : |y1| ≤ M) (r0 : |A0 * x0 + A1 * x1 - b0| ≤ β * S * (|x0| + |x1|) + u * |b0|)
    (r1 : |A2 * x0 + A3 * x1 - b1| ≤ β * S * (|x0| + |x1|) + u * |b1|) (hu : 0 ≤ u) (hub : u ≤ β) (hΔ : 0 < Δ) (hκ : 9 * β ≤ κ * Δ)
    (hκ1 : κ ≤ 1 / 100) : |x0 - y0| ≤ κ * M ∧ |x1 - y1| ≤ κ * M := by
  have hβ : 0 ≤ β := hu.trans hub
  have hM : 0 ≤ M := (abs_nonneg _).trans hy0
  set e := max |x0 - y0| |x1 - y1| with he
  have he0 : |x0 - y0| ≤ e := le_max_left _ _
  have he1 : |x1 - y1| ≤ e := le_max_right _ _
  have hen : 0 ≤ e := (abs_nonneg _).trans he0
  have hx0 : |x0| ≤ M + e := by
    have := abs_add_le y0 (x0 - y0); rw [add_sub_cancel] at this; linarith
  have hx1 : |x1| ≤ M + e := by
    have := abs_add_le y1 (x1 - y1); rw [add_sub_cancel] at this; linarith
  have prod : ∀ {a b : ℝ}, |a| ≤ S → |b| ≤ M → |a * b| ≤ S * M := by
    intro a b ha hb; rw [abs_mul]; exact mul_le_mul ha hb (abs_nonneg _) hS.le
  have hb0 : |b0| ≤ 2 * S * M := by
    rw [← e0]; have := abs_add_le (A0 * y0) (A1 * y1); have := prod h0 hy0; have := prod h1 hy1; linarith
  have hb1 : |b1| ≤ 2 * S * M := by
    rw [← e1]; have := abs_add_le (A2 * y0) (A3 * y1); have := prod h2 hy0; have := prod h3 hy1; linarith
  have bound : ∀ {b : ℝ}, |b| ≤ 2 * S * M → β * S * (|x0| + |x1|) + u * |b| ≤ β * S * (4 * M + 2 * e) := by
    intro b hb
    have c1 : β * S * (|x0| + |x1|) ≤ β * S * (2 * M + 2 * e) := mul_le_mul_of_nonneg_left (by linarith) (by positivity)
    have c2 : u * |b| ≤ β * (2 * S * M) := mul_le_mul hub hb (abs_nonneg _) hβ
    nlinarith
  have R0 : |A0 * (x0 - y0) + A1 * (x1 - y1)| ≤ β * S * (4 * M + 2 * e) := by
    refine le_trans (le_of_eq ?_) (r0.trans (bound hb0)); rw [← e0]; congr 1; ring
  have R1 : |A2 * (x0 - y0) + A3 * (x1 - y1)| ≤ β * S * (4 * M + 2 * e) := by
    refine le_trans (le_of_eq ?_) (r1.trans (bound hb1)); rw [← e1]; congr 1; ring
  have mulR : ∀ {a r : ℝ}, |a| ≤ S → |r| ≤ β * S * (4 * M + 2 * e) → |a * r| ≤ S * (β * S * (4 * M + 2 * e)) := by
    intro a r ha hr; rw [abs_mul]; exact mul_le_mul ha hr (abs_nonneg _) hS.le
  have key : ∀ d : ℝ, |(A0 * A3 - A1 * A2) * d| ≤ 2 * (S * (β * S * (4 * M + 2 * e))) → Δ * |d| ≤ 8 * β * M + 4 * β * e := by
    intro d hd
    rw [abs_mul] at hd
    have c := (mul_le_mul_of_nonneg_right hdet (abs_nonneg d)).trans hd
    have hS2 : 0 < S ^ 2 := by positivity
    refine le_of_mul_le_mul_left ?_ hS2
    nlinarith
  have k0 : Δ * |x0 - y0| ≤ 8 * β * M + 4 * β * e := by
    refine key _ ?_
    have : (A0 * A3 - A1 * A2) * (x0 - y0) = A3 * (A0 * (x0 - y0) + A1 * (x1 - y1)) - A1 * (A2 * (x0 - y0) + A3 * (x1 - y1)) := by ring
    rw [this]
    have t := abs_sub (A3 * (A0 * (x0 - y0) + A1 * (x1 - y1))) (A1 * (A2 * (x0 - y0) + A3 * (x1 - y1)))
    have := mulR h3 R0; have := mulR h1 R1; linarith
  have k1 : Δ * |x1 - y1| ≤ 8 * β * M + 4 * β * e := by
    refine key _ ?_
    have : (A0 * A3 - A1 * A2) * (x1 - y1) = A0 * (A2 * (x0 - y0) + A3 * (x1 - y1)) - A2 * (A0 * (x0 - y0) + A1 * (x1 - y1)) := by ring
    rw [this]
    have t := abs_sub (A0 * (A2 * (x0 - y0) + A3 * (x1 - y1))) (A2 * (A0 * (x0 - y0) + A1 * (x1 - y1)))
    have := mulR h0 R1; have := mulR h2 R0; linarith
  have ke : Δ * e ≤ 8 * β * M + 4 * β * e := by
    rcases max_choice |x0 - y0| |x1 - y1| with h | h
    · have h' : e = |x0 - y0| := h
      calc Δ * e = Δ * |x0 - y0| := by rw [h']
        _ ≤ _ := k0
    · have h' : e = |x1 - y1| := h
      calc Δ * e = Δ * |x1 - y1| := by rw [h']
        _ ≤ _ := k1
  have hfin : e ≤ κ * M := by
    have c1 : 9 * β * M ≤ κ * Δ * M := mul_le_mul_of_nonneg_right hκ hM
    have c2 : 9 * β * e ≤ κ * Δ * e := mul_le_mul_of_nonneg_right hκ hen
    have c3 : κ * (Δ * e) ≤ 1 / 100 * (Δ * e) := mul_le_mul_of_nonneg_right hκ1 (by positivity)
    have c4 : 8.9 * (Δ * e) ≤ Δ * (8 * (κ * M)) := by norm_num; nlinarith
    have c5 : 8.9 * e ≤ 8 * (κ * M) := by
      refine le_of_mul_le_mul_left ?_ hΔ; norm_num at *; linarith
    norm_num at c5
    linarith
  exact ⟨he0.trans hfin, he1.trans hfin⟩

variable {rnd : ℝ → ℝ} {g : Gels (Fl rnd)} {u β Δ : ℝ}

/-- Constant of the residual. -/
noncomputable def resid (u β : ℝ) : ℝ := β * (1 + u) + u

theorem fine_resid (hf : SolvesFinely rnd g u β Δ) : 0 ≤ u ∧ u ≤ resid u β ∧ 0 ≤ resid u β ∧ 9 * resid u β = solveError u β Δ * Δ ∧
    0 ≤ solveError u β Δ := by
  have hu := hf.rounds.rel
  have hb := hf.pos
  have h1 : 0 ≤ β * (1 + u) := by positivity
  have hr : 0 ≤ resid u β := by unfold resid; linarith
  refine ⟨hu, by unfold resid; linarith, hr, ?_, ?_⟩
  · unfold solveError resid; field_simp [hf.shape.ne']
  · unfold solveError; have := hf.shape; exact div_nonneg (by unfold resid at hr; linarith) this.le

theorem two_args2 (a b : Nat → Fl rnd) : Two (args2 a b) := ⟨rfl, rfl, rfl, rfl, rfl, rfl, rfl, rfl, le_rfl⟩

theorem rnd_near (hr : Rounds rnd u 0) (x : ℝ) : |rnd x - x| ≤ u * |x| := by simpa using hr.err x

theorem rnd_zero (hr : Rounds rnd u 0) : rnd 0 = 0 := by
  have := rnd_near hr 0
  simpa using this

theorem rnd_ne_zero' (hr : Rounds rnd u 0) (hu : u < 1) {x : ℝ} (h : x ≠ 0) : rnd x ≠ 0 := by
  intro h0
  have := rnd_near hr x
  rw [h0, zero_sub, abs_neg] at this
  have := abs_pos.mpr h
  nlinarith

theorem mem_args {a b : Nat → Fl rnd} {P : Fl rnd → Prop} (h : ∀ k < 4, P (a k)) : ∀ x ∈ (args2 a b).a, P x := by
  intro x hx
  simp only [args2, List.mem_cons, List.not_mem_nil, or_false] at hx
  rcases hx with rfl | rfl | rfl | rfl
  · exact h 0 (by norm_num)
  · exact h 1 (by norm_num)
  · exact h 2 (by norm_num)
  · exact h 3 (by norm_num)

/-- What an answer satisfies. -/
theorem residual (hf : SolvesFinely rnd g u β Δ) {a b : Nat → Fl rnd} {A B : Nat → ℝ} {S : ℝ} (ha : ∀ k < 4, (a k).val = rnd (A k))
    (hb : ∀ k < 2, (b k).val = rnd (B k)) (hA : ∀ k < 4, |A k| ≤ S)
    (hz : ∃ x ∈ (args2 a b).a, x.val ≠ 0) (h : (g (args2 a b)).info = 0) :
    |A 0 * entry (g (args2 a b)).b 0 + A 1 * entry (g (args2 a b)).b 1 - B 0| ≤
        resid u β * S * (|entry (g (args2 a b)).b 0| + |entry (g (args2 a b)).b 1|) + u * |B 0| ∧
    |A 2 * entry (g (args2 a b)).b 0 + A 3 * entry (g (args2 a b)).b 1 - B 1| ≤
        resid u β * S * (|entry (g (args2 a b)).b 0| + |entry (g (args2 a b)).b 1|) + u * |B 1| := by
  obtain ⟨hu, -, -, -, -⟩ := fine_resid hf
  obtain ⟨E, hE, hsol⟩ := hf.stable.solves _ (two_args2 a b) hz h
  have hS : 0 ≤ S := (abs_nonneg _).trans (hA 0 (by norm_num))
  have hbd : ∀ k < 4, |(a k).val| ≤ (1 + u) * S := by
    intro k hk
    rw [ha k hk]
    have h1 := rnd_near hf.rounds (A k)
    have h2 := abs_add_le (A k) (rnd (A k) - A k)
    rw [add_sub_cancel] at h2
    have := hA k hk
    nlinarith
  have hE' := hE ((1 + u) * S) (mem_args (P := fun x => |x.val| ≤ (1 + u) * S) hbd)
  set x0 := entry (g (args2 a b)).b 0
  set x1 := entry (g (args2 a b)).b 1
  have one : ∀ {A0 A1 F0 F1 a0 a1 B0 b0 : ℝ}, |A0| ≤ S → |A1| ≤ S → a0 = rnd A0 → a1 = rnd A1 → b0 = rnd B0 → |F0| ≤ β * ((1 + u) * S) →
      |F1| ≤ β * ((1 + u) * S) → (a0 + F0) * x0 + (a1 + F1) * x1 = b0 →
      |A0 * x0 + A1 * x1 - B0| ≤ resid u β * S * (|x0| + |x1|) + u * |B0| := by
    intro A0 A1 F0 F1 a0 a1 B0 b0 hA0 hA1 e0 e1 eb hF0 hF1 heq
    subst e0 e1 eb
    have d0 := rnd_near hf.rounds A0
    have d1 := rnd_near hf.rounds A1
    have db := rnd_near hf.rounds B0
    have t : ∀ {A' F' : ℝ}, |A'| ≤ S → |rnd A' - A'| ≤ u * |A'| → |F'| ≤ β * ((1 + u) * S) → |A' - rnd A' - F'| ≤ resid u β * S := by
      intro A' F' h1 h2 h3
      have := abs_sub (A' - rnd A') F'
      rw [abs_sub_comm A'] at this
      have : u * |A'| ≤ u * S := mul_le_mul_of_nonneg_left h1 hu
      unfold resid
      nlinarith
    have t0 := t hA0 d0 hF0
    have t1 := t hA1 d1 hF1
    have e : A0 * x0 + A1 * x1 - B0 = (A0 - rnd A0 - F0) * x0 + (A1 - rnd A1 - F1) * x1 + (rnd B0 - B0) := by linear_combination heq
    rw [e]
    have s1 := abs_add_le ((A0 - rnd A0 - F0) * x0 + (A1 - rnd A1 - F1) * x1) (rnd B0 - B0)
    have s2 := abs_add_le ((A0 - rnd A0 - F0) * x0) ((A1 - rnd A1 - F1) * x1)
    rw [abs_mul, abs_mul] at s2
    have s3 := mul_le_mul_of_nonneg_right t0 (abs_nonneg x0)
    have s4 := mul_le_mul_of_nonneg_right t1 (abs_nonneg x1)
    nlinarith
  exact ⟨one (hA 0 (by norm_num)) (hA 1 (by norm_num)) (ha 0 (by norm_num)) (ha 1 (by norm_num)) (hb 0 (by norm_num)) (hE' 0 0) (hE' 1 0) (hsol 0 (by norm_num)),
    one (hA 2 (by norm_num)) (hA 3 (by norm_num)) (ha 2 (by norm_num)) (ha 3 (by norm_num)) (hb 1 (by norm_num)) (hE' 0 1) (hE' 1 1) (hsol 1 (by norm_num))⟩

/-- Systems that are not close to singular are solved. -/
theorem answered (hf : SolvesFinely rnd g u β Δ) {a b : Nat → Fl rnd} {A : Nat → ℝ} {S : ℝ} (ha : ∀ k < 4, (a k).val = rnd (A k))
    (hA : ∀ k < 4, |A k| ≤ S) (hS : 0 < S) (hdet : Δ * S ^ 2 ≤ |A 0 * A 3 - A 1 * A 2|) : (g (args2 a b)).info = 0 := by
  obtain ⟨hu, hur, hr0, hκ, hκ0⟩ := fine_resid hf
  by_contra hne
  obtain ⟨-, E, hE, hsing⟩ := hf.stable.reported _ (two_args2 a b) hne
  have hbd : ∀ k < 4, |(a k).val| ≤ (1 + u) * S := by
    intro k hk
    rw [ha k hk]
    have h1 := rnd_near hf.rounds (A k)
    have h2 := abs_add_le (A k) (rnd (A k) - A k)
    rw [add_sub_cancel] at h2
    have := hA k hk
    nlinarith
  have hE' := hE ((1 + u) * S) (mem_args (P := fun x => |x.val| ≤ (1 + u) * S) hbd)
  have t : ∀ {A' F' : ℝ}, |A'| ≤ S → |F'| ≤ β * ((1 + u) * S) → |rnd A' + F' - A'| ≤ resid u β * S := by
    intro A' F' h1 h3
    have h2 := rnd_near hf.rounds A'
    have := abs_add_le (rnd A' - A') F'
    have : u * |A'| ≤ u * S := mul_le_mul_of_nonneg_left h1 hu
    have e : rnd A' + F' - A' = (rnd A' - A') + F' := by ring
    rw [e]
    unfold resid
    nlinarith
  change ((a 0).val + E 0 0) * ((a 3).val + E 1 1) - ((a 1).val + E 1 0) * ((a 2).val + E 0 1) = 0 at hsing
  rw [ha 0 (by norm_num), ha 1 (by norm_num), ha 2 (by norm_num), ha 3 (by norm_num)] at hsing
  have t0 := t (hA 0 (by norm_num)) (hE' 0 0)
  have t1 := t (hA 1 (by norm_num)) (hE' 1 0)
  have t2 := t (hA 2 (by norm_num)) (hE' 0 1)
  have t3 := t (hA 3 (by norm_num)) (hE' 1 1)
  generalize rnd (A 0) + E 0 0 = x0 at hsing t0
  generalize rnd (A 1) + E 1 0 = x1 at hsing t1
  generalize rnd (A 2) + E 0 1 = x2 at hsing t2
  generalize rnd (A 3) + E 1 1 = x3 at hsing t3
  have a0 := hA 0 (by norm_num)
  have a1 := hA 1 (by norm_num)
  have a2 := hA 2 (by norm_num)
  have a3 := hA 3 (by norm_num)
  have hr2 : resid u β ≤ Δ / 16 := by have := mul_le_mul_of_nonneg_right hf.small hf.shape.le; linarith
  have hdet2 : |A 0 * A 3 - A 1 * A 2| ≤ 2 * S ^ 2 := by
    have := abs_sub (A 0 * A 3) (A 1 * A 2)
    rw [abs_mul, abs_mul] at this
    have := mul_le_mul a0 a3 (abs_nonneg _) hS.le
    have := mul_le_mul a1 a2 (abs_nonneg _) hS.le
    nlinarith
  have hΔ2 : Δ ≤ 2 := by
    refine le_of_mul_le_mul_right (hdet.trans hdet2) (by positivity)
  set c := resid u β with hc
  -- the difference of the determinants
  have e : A 0 * A 3 - A 1 * A 2 = -(A 0 * (x3 - A 3) + A 3 * (x0 - A 0) + (x0 - A 0) * (x3 - A 3)) +
      (A 1 * (x2 - A 2) + A 2 * (x1 - A 1) + (x1 - A 1) * (x2 - A 2)) := by linear_combination hsing
  have m : ∀ {p q P Q : ℝ}, |p| ≤ P → |q| ≤ Q → |p * q| ≤ P * Q := by
    intro p q P Q hp hq; rw [abs_mul]; exact mul_le_mul hp hq (abs_nonneg _) ((abs_nonneg _).trans hp)
  have b1 := m a0 t3
  have b2 := m a3 t0
  have b3 := m t0 t3
  have b4 := m a1 t2
  have b5 := m a2 t1
  have b6 := m t1 t2
  have hsum : |A 0 * A 3 - A 1 * A 2| ≤ 4 * (S * (c * S)) + 2 * ((c * S) * (c * S)) := by
    rw [e]
    rw [abs_le] at *
    constructor <;> linarith [b1.1, b1.2, b2.1, b2.2, b3.1, b3.2, b4.1, b4.2, b5.1, b5.2, b6.1, b6.2]
  have hfin : 4 * c + 2 * c ^ 2 < Δ := by nlinarith [hf.shape]
  have : (4 * c + 2 * c ^ 2) * S ^ 2 < Δ * S ^ 2 := mul_lt_mul_of_pos_right hfin (by positivity)
  nlinarith

/-- The solution is accurate. -/
theorem solved (hf : SolvesFinely rnd g u β Δ) {a b : Nat → Fl rnd} {A B : Nat → ℝ} {S : ℝ} (ha : ∀ k < 4, (a k).val = rnd (A k))
    (hb : ∀ k < 2, (b k).val = rnd (B k)) (hA : ∀ k < 4, |A k| ≤ S) (hS : 0 < S) (hdet : Δ * S ^ 2 ≤ |A 0 * A 3 - A 1 * A 2|)
    {y0 y1 M : ℝ} (e0 : A 0 * y0 + A 1 * y1 = B 0) (e1 : A 2 * y0 + A 3 * y1 = B 1) (hy0 : |y0| ≤ M) (hy1 : |y1| ≤ M) :
    (g (args2 a b)).info = 0 ∧ |entry (g (args2 a b)).b 0 - y0| ≤ solveError u β Δ * M ∧
      |entry (g (args2 a b)).b 1 - y1| ≤ solveError u β Δ * M := by
  obtain ⟨hu, hur, hr0, hκ, hκ0⟩ := fine_resid hf
  have hi := answered hf (b := b) ha hA hS hdet
  have hz : ∃ x ∈ (args2 a b).a, x.val ≠ 0 := by
    by_contra hcon
    push Not at hcon
    have e : ∀ k < 4, A k = 0 := by
      intro k hk
      by_contra hne
      refine rnd_ne_zero' hf.rounds (hf.unit.trans_lt (by norm_num)) hne ?_
      rw [← ha k hk]
      refine hcon (a k) ?_
      interval_cases k <;> simp [args2]
    rw [e 0 (by norm_num), e 1 (by norm_num)] at hdet
    have := hf.shape
    have : 0 < Δ * S ^ 2 := by positivity
    norm_num at hdet
    linarith
  obtain ⟨r0, r1⟩ := residual hf ha hb hA hz hi
  have h1 : solveError u β Δ ≤ 1 / 100 := hf.small.trans (by norm_num)
  exact ⟨hi, real_solve hS (hA 0 (by norm_num)) (hA 1 (by norm_num)) (hA 2 (by norm_num)) (hA 3 (by norm_num)) hdet e0 e1 hy0 hy1 r0 r1 hu
    hur hf.shape hκ.le h1⟩

/-! ### The tolerance -/

theorem tol_near (hf : SolvesFinely rnd g u β Δ) : |(tol : Fl rnd).val - 1 / 10 ^ 12| ≤ 1 / 10 ^ 26 := by
  have e : (tol : Fl rnd).val = rnd (1 / 10 ^ 12) := by
    show rnd (1 / rnd ((1000000000000 : Nat) : ℝ)) = _
    have := hf.consts.tera
    rw [show (((1000000000000 : Nat) : ℝ)) = 1000000000000 by norm_num, this]
    norm_num
  rw [e]
  refine (rnd_near hf.rounds _).trans ?_
  have := hf.unit
  norm_num at *
  linarith

theorem one_tol_near (hf : SolvesFinely rnd g u β Δ) : |((1 : Fl rnd) + tol).val - (1 + 1 / 10 ^ 12)| ≤ 2 / 10 ^ 14 ∧
    |((1 : Fl rnd) - tol).val - (1 - 1 / 10 ^ 12)| ≤ 2 / 10 ^ 14 := by
  have ht := tol_near hf
  have hu := hf.rounds.rel
  have hu' := hf.unit
  rw [Fl.add_val, Fl.sub_val]
  change |rnd (1 + (tol : Fl rnd).val) - _| ≤ _ ∧ |rnd (1 - (tol : Fl rnd).val) - _| ≤ _
  generalize (tol : Fl rnd).val = t at ht
  rw [abs_le] at ht
  norm_num at ht hu'
  have a1 : |1 + t| ≤ 1.1 := by rw [abs_le]; constructor <;> norm_num <;> linarith
  have a2 : |1 - t| ≤ 1.1 := by rw [abs_le]; constructor <;> norm_num <;> linarith
  have b1 := (rnd_near hf.rounds (1 + t)).trans (mul_le_mul hu' a1 (abs_nonneg _) (by norm_num))
  have b2 := (rnd_near hf.rounds (1 - t)).trans (mul_le_mul hu' a2 (abs_nonneg _) (by norm_num))
  rw [abs_le] at b1 b2 ⊢
  rw [abs_le]
  norm_num at b1 b2 ⊢
  constructor <;> constructor <;> linarith [b1.1, b1.2, b2.1, b2.2]

theorem rnd_ne_zero (hf : SolvesFinely rnd g u β Δ) {x : ℝ} (h : x ≠ 0) : rnd x ≠ 0 := by
  intro h0
  have := rnd_near hf.rounds x
  rw [h0, zero_sub, abs_neg] at this
  have hx := abs_pos.mpr h
  have hu : u ≤ 1 / 2 := hf.unit.trans (by norm_num)
  nlinarith

/-! ### Points and triangles -/

theorem triMat_val (a b c : Pt (Fl rnd)) (k : Nat) : (triMat a b c k).val = rnd (triMat (valPt a) (valPt b) (valPt c) k) := by
  unfold triMat
  split <;> rfl

theorem triRhs_val (p a : Pt (Fl rnd)) (k : Nat) : (triRhs p a k).val = rnd (triRhs (valPt p) (valPt a) k) := by
  unfold triRhs
  split <;> rfl

theorem abs_sub_le_dist (a b : P2) : |b.1 - a.1| ≤ dist a b ∧ |b.2 - a.2| ≤ dist a b := by
  rw [Prod.dist_eq, Real.dist_eq, Real.dist_eq, abs_sub_comm a.1, abs_sub_comm a.2]
  exact ⟨le_max_left _ _, le_max_right _ _⟩

/-- Solutions and tests. -/
theorem tri_decide {t T x0 x1 z v w κ M : ℝ} (ht : |t - 1 / 10 ^ 12| ≤ 1 / 10 ^ 26) (hT : |T - (1 + 1 / 10 ^ 12)| ≤ 2 / 10 ^ 14)
    (hz : |z - (x0 + x1)| ≤ 1 / 10 ^ 14 * |x0 + x1|) (hκ0 : 0 ≤ κ) (hκ : κ ≤ 4 / 10 ^ 13) (hM : M = max |v| |w|)
    (h0 : |x0 - v| ≤ κ * M) (h1 : |x1 - w| ≤ κ * M) (cu : ClearSign2 (1 - v - w)) (cv : ClearSign2 v) (cw : ClearSign2 w) :
    (-t < x0 ∧ x0 ≤ T ∧ -t < x1 ∧ z ≤ T) ↔ (0 ≤ 1 - v - w ∧ 0 ≤ v ∧ 0 ≤ w) := by
  unfold ClearSign2 at *
  rw [abs_le] at ht hT
  norm_num at ht hT hκ hz
  have hv : |v| ≤ M := hM ▸ le_max_left _ _
  have hw : |w| ≤ M := hM ▸ le_max_right _ _
  have hM0 : 0 ≤ M := (abs_nonneg _).trans hv
  constructor
  · rintro ⟨c1, c2, c3, c4⟩
    -- the sum
    have hs : |x0 + x1| ≤ 3 := by
      by_contra hcon
      push Not at hcon
      rcases abs_cases (x0 + x1) with ⟨e, _⟩ | ⟨e, _⟩
      · rw [e] at hcon hz
        rw [abs_le] at hz
        linarith [hz.1, hz.2]
      · linarith
    have hz' : |z - (x0 + x1)| ≤ 3 / 100000000000000 := hz.trans (by linarith)
    rw [abs_le] at hz' hs
    have x0b : |x0| ≤ 1.01 := by rw [abs_le]; norm_num; constructor <;> linarith
    have x1b : |x1| ≤ 1.01 := by rw [abs_le]; norm_num; constructor <;> linarith
    have hκM : κ * M ≤ 1 / 2500000000000 * M := mul_le_mul_of_nonneg_right hκ hM0
    have hM1 : M ≤ 1.1 := by
      rcases max_choice |v| |w| with h | h
      · have : M = |v| := hM.trans h
        have := abs_sub_abs_le_abs_sub v x0
        rw [abs_sub_comm v] at this
        norm_num at *; linarith
      · have : M = |w| := hM.trans h
        have := abs_sub_abs_le_abs_sub w x1
        rw [abs_sub_comm w] at this
        norm_num at *; linarith
    norm_num at hM1
    rw [abs_le] at h0 h1
    refine ⟨?_, ?_, ?_⟩
    · rcases cu with h | h
      · exact h
      · exfalso; norm_num at h; linarith [h0.1, h0.2, h1.1, h1.2, hz'.1, hz'.2]
    · rcases cv with h | h
      · exact h
      · exfalso; norm_num at h; linarith [h0.1, h0.2, h1.1, h1.2]
    · rcases cw with h | h
      · exact h
      · exfalso; norm_num at h; linarith [h0.1, h0.2, h1.1, h1.2]
  · rintro ⟨c1, c2, c3⟩
    have hM1 : M ≤ 1 := by
      rw [hM, abs_of_nonneg c2, abs_of_nonneg c3]
      exact max_le (by linarith) (by linarith)
    have hκM : κ * M ≤ 1 / 2500000000000 := by
      have := mul_le_mul hκ hM1 hM0 (by norm_num); linarith
    rw [abs_le] at h0 h1
    have hs : |x0 + x1| ≤ 3 := by rw [abs_le]; constructor <;> linarith [h0.1, h0.2, h1.1, h1.2]
    have hz' : |z - (x0 + x1)| ≤ 3 / 100000000000000 := hz.trans (by linarith)
    rw [abs_le] at hz'
    refine ⟨?_, ?_, ?_, ?_⟩ <;> linarith [h0.1, h0.2, h1.1, h1.2, hz'.1, hz'.2]

theorem inTri_near (hf : SolvesFinely rnd g u β Δ) {ge : Gels ℝ} (hge : GelsContract ge) {p a b c : Pt (Fl rnd)}
    (hs : ShapedBy Δ (valPt a) (valPt b) (valPt c)) (hc : ClearOfSides2 (valPt a) (valPt b) (valPt c) (valPt p)) :
    inTri g p a b c = inTri ge (valPt p) (valPt a) (valPt b) (valPt c) := by
  rcases hs with ⟨hne, hb, hcc⟩ | ⟨h1, h2⟩
  · have hcr : cross (valPt a) (valPt b) (valPt c) ≠ 0 := by rw [cross_area2]; exact hne
    obtain ⟨u', v, w, hsum, hp⟩ := exists_bary hcr (valPt p)
    have hu' : u' = 1 - v - w := by linarith
    obtain ⟨cu, cv, cw⟩ := hc hne u' v w hsum hp
    have hx : (valPt p).1 = u' * (valPt a).1 + v * (valPt b).1 + w * (valPt c).1 := by rw [hp]; rfl
    have hy : (valPt p).2 = u' * (valPt a).2 + v * (valPt b).2 + w * (valPt c).2 := by rw [hp]; rfl
    have hexact := inTri_iff hge hcr hsum hx hy
    rw [tol_real] at hexact
    set S := max (dist (valPt a) (valPt b)) (dist (valPt a) (valPt c)) with hS
    have dab := abs_sub_le_dist (valPt a) (valPt b)
    have dac := abs_sub_le_dist (valPt a) (valPt c)
    have hdet : triMat (valPt a) (valPt b) (valPt c) 0 * triMat (valPt a) (valPt b) (valPt c) 3 -
        triMat (valPt a) (valPt b) (valPt c) 1 * triMat (valPt a) (valPt b) (valPt c) 2 = area2 (valPt a) (valPt b) (valPt c) := by
      simp only [triMat, area2]; ring
    have hSpos : 0 < S := by
      by_contra hcon
      push Not at hcon
      have e1 : dist (valPt a) (valPt b) = 0 := le_antisymm ((le_max_left _ _).trans hcon) dist_nonneg
      rw [dist_eq_zero] at e1
      apply hne
      rw [e1]; simp [area2]
    have hA : ∀ k < 4, |triMat (valPt a) (valPt b) (valPt c) k| ≤ S := by
      intro k hk
      interval_cases k
      · exact dab.1.trans (le_max_left _ _)
      · exact dac.1.trans (le_max_right _ _)
      · exact dab.2.trans (le_max_left _ _)
      · exact dac.2.trans (le_max_right _ _)
    obtain ⟨hi, s0, s1⟩ := solved hf (a := triMat a b c) (b := triRhs p a) (A := triMat (valPt a) (valPt b) (valPt c))
      (B := triRhs (valPt p) (valPt a)) (S := S) (y0 := v) (y1 := w) (M := max |v| |w|) (fun k _ => triMat_val a b c k)
      (fun k _ => triRhs_val p a k) hA hSpos (by
        rw [hdet]
        rcases max_choice (dist (valPt a) (valPt b)) (dist (valPt a) (valPt c)) with h | h
        · rw [hS, h]; exact hb
        · rw [hS, h]; exact hcc)
      (by simp only [triMat, triRhs]; rw [hx, hu']; ring) (by simp only [triMat, triRhs]; rw [hy, hu']; ring)
      (le_max_left _ _) (le_max_right _ _)
    rw [Bool.eq_iff_iff, hexact]
    have hdec := tri_decide (t := (tol : Fl rnd).val) (T := ((1 : Fl rnd) + tol).val)
      (z := rnd (entry (g (args2 (triMat a b c) (triRhs p a))).b 0 + entry (g (args2 (triMat a b c) (triRhs p a))).b 1))
      (tol_near hf) (one_tol_near hf).1
      ((rnd_near hf.rounds _).trans (mul_le_mul_of_nonneg_right hf.unit (abs_nonneg _)))
      (fine_resid hf).2.2.2.2 hf.small rfl s0 s1 (hu' ▸ cu) cv cw
    unfold inTri
    simp only [hi, lt_irrefl, if_false, Bool.and_eq_true, decide_eq_true_eq]
    have hl : ((((-tol < (g (args2 (triMat a b c) (triRhs p a))).b.getD 0 0 ∧
        (g (args2 (triMat a b c) (triRhs p a))).b.getD 0 0 ≤ 1 + tol) ∧
        -tol < (g (args2 (triMat a b c) (triRhs p a))).b.getD 1 0) ∧
        (g (args2 (triMat a b c) (triRhs p a))).b.getD 0 0 + (g (args2 (triMat a b c) (triRhs p a))).b.getD 1 0 ≤ 1 + tol)) ↔
        (0 ≤ 1 - v - w ∧ 0 ≤ v ∧ 0 ≤ w) := by
      rw [← hdec]
      exact ⟨fun h => ⟨h.1.1.1, h.1.1.2, h.1.2, h.2⟩, fun h => ⟨⟨⟨h.1, h.2.1⟩, h.2.2.1⟩, h.2.2.2⟩⟩
    rw [hl]
    unfold ClearSign2 at cu cv cw
    rw [hu'] at cu
    norm_num at cu cv cw ⊢
    constructor
    · rintro ⟨d1, d2, d3⟩; refine ⟨?_, ?_, ?_, ?_⟩ <;> linarith
    · rintro ⟨d1, d2, d3, d4⟩
      refine ⟨?_, ?_, ?_⟩
      · rcases cu with h | h
        · linarith
        · exfalso; linarith
      · rcases cv with h | h
        · exact h
        · exfalso; linarith
      · rcases cw with h | h
        · exact h
        · exfalso; linarith
  · have e1 : inTri ge (valPt p) (valPt a) (valPt b) (valPt c) = false :=
      inTri_degenerate hge (by rintro ⟨h, -⟩; exact h2 h) (by rw [← h1, cross_area2]; simp only [area2]; ring)
    have hac : ∀ k < 4, k = 1 ∨ k = 3 → (triMat a b c k).val = 0 := by
      intro k _ hk
      rw [triMat_val]
      rcases hk with rfl | rfl
      · show rnd ((valPt c).1 - (valPt a).1) = 0; rw [h1, sub_self, rnd_zero hf.rounds]
      · show rnd ((valPt c).2 - (valPt a).2) = 0; rw [h1, sub_self, rnd_zero hf.rounds]
    have hi : 0 < (g (args2 (triMat a b c) (triRhs p a))).info := by
      refine hf.stable.no_unknown _ (two_args2 _ _) ?_ ?_
      · by_contra hcon
        push Not at hcon
        have k0 := hcon (triMat a b c 0) (by simp [args2])
        have k2 := hcon (triMat a b c 2) (by simp [args2])
        rw [triMat_val] at k0 k2
        refine h2 (Prod.ext ?_ ?_)
        · by_contra hx
          exact rnd_ne_zero hf (x := (valPt b).1 - (valPt a).1) (sub_ne_zero.mpr (Ne.symm hx)) k0
        · by_contra hx
          exact rnd_ne_zero hf (x := (valPt b).2 - (valPt a).2) (sub_ne_zero.mpr (Ne.symm hx)) k2
      · intro j hj
        interval_cases j
        · exact hac 1 (by norm_num) (Or.inl rfl)
        · exact hac 3 (by norm_num) (Or.inr rfl)
    rw [e1]
    unfold inTri
    simp only [if_pos hi]

/-! ### Crossings of edges -/

theorem edgeMat_val (a0 a1 b0 b1 : Pt (Fl rnd)) (k : Nat) :
    (edgeMat a0 a1 b0 b1 k).val = rnd (edgeMat (valPt a0) (valPt a1) (valPt b0) (valPt b1) k) := by
  unfold edgeMat
  split <;> rfl

/-- The crossing is accepted. -/
def Accepted (g : Gels (Fl rnd)) (a0 a1 b0 b1 : Pt (Fl rnd)) : Prop :=
  ¬ 0 < (g (args2 (edgeMat a0 a1 b0 b1) (triRhs b0 a0))).info ∧
  (tol < (g (args2 (edgeMat a0 a1 b0 b1) (triRhs b0 a0))).b.getD 0 0 ∧
    (g (args2 (edgeMat a0 a1 b0 b1) (triRhs b0 a0))).b.getD 0 0 ≤ 1 - tol ∧
    tol < (g (args2 (edgeMat a0 a1 b0 b1) (triRhs b0 a0))).b.getD 1 0 ∧
    (g (args2 (edgeMat a0 a1 b0 b1) (triRhs b0 a0))).b.getD 1 0 ≤ 1 - tol)

theorem edgeX_of_not {a0 a1 b0 b1 : Pt (Fl rnd)} (h : ¬ Accepted g a0 a1 b0 b1) : edgeX g a0 a1 b0 b1 = none := by
  unfold edgeX
  dsimp only
  split_ifs with h1 h2
  · rfl
  · exact absurd ⟨h1, h2⟩ h
  · rfl

theorem edgeX_of {a0 a1 b0 b1 : Pt (Fl rnd)} (h : Accepted g a0 a1 b0 b1) : edgeX g a0 a1 b0 b1 =
    some (a0.1 + (g (args2 (edgeMat a0 a1 b0 b1) (triRhs b0 a0))).b.getD 0 0 * (a1.1 - a0.1),
      a0.2 + (g (args2 (edgeMat a0 a1 b0 b1) (triRhs b0 a0))).b.getD 0 0 * (a1.2 - a0.2)) := by
  unfold edgeX
  dsimp only
  rw [if_neg h.1, if_pos h.2]

/-- The parameters of an accepted crossing. -/
theorem Accepted.params (hf : SolvesFinely rnd g u β Δ) {a0 a1 b0 b1 : Pt (Fl rnd)} (h : Accepted g a0 a1 b0 b1) :
    (g (args2 (edgeMat a0 a1 b0 b1) (triRhs b0 a0))).info = 0 ∧
    0 < entry (g (args2 (edgeMat a0 a1 b0 b1) (triRhs b0 a0))).b 0 ∧ entry (g (args2 (edgeMat a0 a1 b0 b1) (triRhs b0 a0))).b 0 < 1 ∧
    0 < entry (g (args2 (edgeMat a0 a1 b0 b1) (triRhs b0 a0))).b 1 ∧ entry (g (args2 (edgeMat a0 a1 b0 b1) (triRhs b0 a0))).b 1 < 1 := by
  obtain ⟨hi, c1, c2, c3, c4⟩ := h
  have ht := tol_near hf
  have hT := (one_tol_near hf).2
  rw [abs_le] at ht hT
  norm_num at ht hT
  have c1 : (tol : Fl rnd).val < entry (g (args2 (edgeMat a0 a1 b0 b1) (triRhs b0 a0))).b 0 := c1
  have c2 : entry (g (args2 (edgeMat a0 a1 b0 b1) (triRhs b0 a0))).b 0 ≤ ((1 : Fl rnd) - tol).val := c2
  have c3 : (tol : Fl rnd).val < entry (g (args2 (edgeMat a0 a1 b0 b1) (triRhs b0 a0))).b 1 := c3
  have c4 : entry (g (args2 (edgeMat a0 a1 b0 b1) (triRhs b0 a0))).b 1 ≤ ((1 : Fl rnd) - tol).val := c4
  refine ⟨?_, by linarith, by linarith, by linarith, by linarith⟩
  by_contra hne
  exact hi (hf.stable.reported _ (two_args2 _ _) hne).1

theorem edge_bound (a0 a1 b0 b1 : P2) : ∀ k < 4, |edgeMat a0 a1 b0 b1 k| ≤ max (dist a0 a1) (dist b0 b1) := by
  have dab := abs_sub_le_dist a0 a1
  have dcd := abs_sub_le_dist b1 b0
  rw [dist_comm b1] at dcd
  intro k hk
  interval_cases k
  · exact dab.1.trans (le_max_left _ _)
  · exact dcd.1.trans (le_max_right _ _)
  · exact dab.2.trans (le_max_left _ _)
  · exact dcd.2.trans (le_max_right _ _)

/-- Edges that are beside each other are not accepted. -/
theorem not_accepted_beside (hf : SolvesFinely rnd g u β Δ) {a0 a1 b0 b1 : Pt (Fl rnd)}
    (h : Beside (Δ / 10 ^ 12 * (dist (valPt a0) (valPt a1) + dist (valPt b0) (valPt b1) + dist (valPt a0) (valPt b0)) ^ 2)
        (valPt a0) (valPt a1) (valPt b0) (valPt b1) ∨
      Beside (Δ / 10 ^ 12 * (dist (valPt a0) (valPt a1) + dist (valPt b0) (valPt b1) + dist (valPt a0) (valPt b0)) ^ 2)
        (valPt b0) (valPt b1) (valPt a0) (valPt a1)) : ¬ Accepted g a0 a1 b0 b1 := by
  intro hacc
  obtain ⟨hi, x0p, x0l, x1p, x1l⟩ := hacc.params hf
  obtain ⟨hu, hur, hr0, hκ, hκ0⟩ := fine_resid hf
  obtain ⟨r0, r1⟩ := residual hf (a := edgeMat a0 a1 b0 b1) (b := triRhs b0 a0)
    (A := edgeMat (valPt a0) (valPt a1) (valPt b0) (valPt b1)) (B := triRhs (valPt b0) (valPt a0))
    (S := max (dist (valPt a0) (valPt a1)) (dist (valPt b0) (valPt b1))) (fun k _ => edgeMat_val a0 a1 b0 b1 k)
    (fun k _ => triRhs_val b0 a0 k) (edge_bound _ _ _ _) (by
      by_contra hcon
      push Not at hcon
      have := (hf.stable.zero _ (two_args2 _ _) hcon).2 0 (by norm_num)
      linarith) hi
  generalize entry (g (args2 (edgeMat a0 a1 b0 b1) (triRhs b0 a0))).b 0 = x0 at *
  generalize entry (g (args2 (edgeMat a0 a1 b0 b1) (triRhs b0 a0))).b 1 = x1 at *
  have hb := edge_bound (valPt a0) (valPt a1) (valPt b0) (valPt b1)
  have dB := abs_sub_le_dist (valPt a0) (valPt b0)
  generalize valPt a0 = A0 at *
  generalize valPt a1 = A1 at *
  generalize valPt b0 = B0 at *
  generalize valPt b1 = B1 at *
  set L := dist A0 A1 + dist B0 B1 + dist A0 B0 with hL
  have n1 : 0 ≤ dist A0 A1 := dist_nonneg
  have n2 : 0 ≤ dist B0 B1 := dist_nonneg
  have n3 : 0 ≤ dist A0 B0 := dist_nonneg
  have hL0 : 0 ≤ L := by linarith
  have hSL : max (dist A0 A1) (dist B0 B1) ≤ L := max_le (by linarith) (by linarith)
  have hS0 : 0 ≤ max (dist A0 A1) (dist B0 B1) := n1.trans (le_max_left _ _)
  generalize max (dist A0 A1) (dist B0 B1) = S at *
  set c := resid u β
  have res : ∀ {r B : ℝ}, |r| ≤ c * S * (|x0| + |x1|) + u * |B| → |B| ≤ dist A0 B0 → |r| ≤ 3 * c * L := by
    intro r B h1 h2
    rw [abs_of_pos x0p, abs_of_pos x1p] at h1
    have e1 : c * S * (x0 + x1) ≤ c * L * 2 := mul_le_mul (mul_le_mul_of_nonneg_left hSL hr0) (by linarith) (by linarith) (by positivity)
    have e2 : u * |B| ≤ c * L := mul_le_mul hur (by linarith) (abs_nonneg _) hr0
    linarith
  have q0 := res r0 dB.1
  have q1 := res r1 dB.2
  have m : ∀ {p r : ℝ}, |p| ≤ S → |r| ≤ 3 * c * L → |p * r| ≤ L * (3 * c * L) := by
    intro p r hp hr; rw [abs_mul]; exact mul_le_mul (hp.trans hSL) hr (abs_nonneg _) hL0
  have hcΔ : 6 * c ≤ Δ / 10 ^ 12 := by have := mul_le_mul_of_nonneg_right hf.small hf.shape.le; norm_num at *; linarith [hf.shape]
  have hL2 : 0 ≤ L ^ 2 := by positivity
  have fin : 6 * c * L ^ 2 ≤ Δ / 10 ^ 12 * L ^ 2 := mul_le_mul_of_nonneg_right hcΔ hL2
  have comb : ∀ {t x y D : ℝ}, 0 < t → t < 1 → |D| ≤ 6 * c * L ^ 2 → D = (1 - t) * x + t * y →
      (Δ / 10 ^ 12 * L ^ 2 < x ∧ Δ / 10 ^ 12 * L ^ 2 < y) ∨ (x < -(Δ / 10 ^ 12 * L ^ 2) ∧ y < -(Δ / 10 ^ 12 * L ^ 2)) → False := by
    intro t x y D t0 t1 hD e hxy
    rw [abs_le] at hD
    rcases hxy with ⟨h1, h2⟩ | ⟨h1, h2⟩
    · have : (1 - t) * (Δ / 10 ^ 12 * L ^ 2) + t * (Δ / 10 ^ 12 * L ^ 2) < D := by
        rw [e]; exact add_lt_add (mul_lt_mul_of_pos_left h1 (by linarith)) (mul_lt_mul_of_pos_left h2 t0)
      nlinarith
    · have : D < (1 - t) * (-(Δ / 10 ^ 12 * L ^ 2)) + t * (-(Δ / 10 ^ 12 * L ^ 2)) := by
        rw [e]; exact add_lt_add (mul_lt_mul_of_pos_left h1 (by linarith)) (mul_lt_mul_of_pos_left h2 t0)
      nlinarith
  have big : ∀ {p q r s : ℝ}, |p| ≤ S → |q| ≤ S → |r| ≤ 3 * c * L → |s| ≤ 3 * c * L → |p * r - q * s| ≤ 6 * c * L ^ 2 := by
    intro p q r s hp hq hr hs
    have := abs_sub (p * r) (q * s)
    have := m hp hr
    have := m hq hs
    nlinarith
  rcases h with h | h
  · refine comb x1p x1l (big (hb 2 (by norm_num)) (hb 0 (by norm_num)) q0 q1) ?_ h
    simp only [edgeMat, triRhs, area2]; ring
  · refine comb x0p x0l (big (hb 3 (by norm_num)) (hb 1 (by norm_num)) q0 q1) ?_ h
    simp only [edgeMat, triRhs, area2]; ring

/-- Edges along the same axis are not accepted. -/
theorem not_accepted_axis (hf : SolvesFinely rnd g u β Δ) {a0 a1 b0 b1 : Pt (Fl rnd)}
    (h : ((valPt a0).1 = (valPt a1).1 ∧ (valPt b0).1 = (valPt b1).1) ∨ ((valPt a0).2 = (valPt a1).2 ∧ (valPt b0).2 = (valPt b1).2)) :
    ¬ Accepted g a0 a1 b0 b1 := by
  intro hacc
  obtain ⟨hi, x0p, -, -, -⟩ := hacc.params hf
  by_cases hz : ∀ x ∈ (args2 (edgeMat a0 a1 b0 b1) (triRhs b0 a0)).a, x.val = 0
  · have := (hf.stable.zero _ (two_args2 _ _) hz).2 0 (by norm_num)
    linarith
  · push Not at hz
    have := hf.stable.no_equation _ (two_args2 _ _) hz (by
      rcases h with ⟨h1, h2⟩ | ⟨h1, h2⟩
      · refine ⟨0, by norm_num, ?_, ?_⟩
        · show (edgeMat a0 a1 b0 b1 0).val = 0
          rw [edgeMat_val]; show rnd ((valPt a1).1 - (valPt a0).1) = 0; rw [h1, sub_self, rnd_zero hf.rounds]
        · show (edgeMat a0 a1 b0 b1 1).val = 0
          rw [edgeMat_val]; show rnd ((valPt b0).1 - (valPt b1).1) = 0; rw [h2, sub_self, rnd_zero hf.rounds]
      · refine ⟨1, by norm_num, ?_, ?_⟩
        · show (edgeMat a0 a1 b0 b1 2).val = 0
          rw [edgeMat_val]; show rnd ((valPt a1).2 - (valPt a0).2) = 0; rw [h1, sub_self, rnd_zero hf.rounds]
        · show (edgeMat a0 a1 b0 b1 3).val = 0
          rw [edgeMat_val]; show rnd ((valPt b0).2 - (valPt b1).2) = 0; rw [h2, sub_self, rnd_zero hf.rounds])
    omega

/-- The open edges have no point in common then. -/
theorem no_crossing {a0 a1 b0 b1 : P2} {m s t : ℝ} (hm : 0 ≤ m) (s0 : 0 < s) (s1 : s < 1) (t0 : 0 < t) (t1 : t < 1)
    (hd : (a1 - a0).1 * (b1 - b0).2 - (a1 - a0).2 * (b1 - b0).1 ≠ 0) (heq : a0 + s • (a1 - a0) = b0 + t • (b1 - b0)) :
    ¬ ((a0.1 = a1.1 ∧ b0.1 = b1.1) ∨ (a0.2 = a1.2 ∧ b0.2 = b1.2) ∨ Beside m a0 a1 b0 b1 ∨ Beside m b0 b1 a0 a1) := by
  intro h
  have hx : a0.1 + s * (a1.1 - a0.1) = b0.1 + t * (b1.1 - b0.1) := congrArg Prod.fst heq
  have hy : a0.2 + s * (a1.2 - a0.2) = b0.2 + t * (b1.2 - b0.2) := congrArg Prod.snd heq
  simp only [Prod.fst_sub, Prod.snd_sub] at hd
  have comb : ∀ {t x y : ℝ}, 0 < t → t < 1 → (1 - t) * x + t * y = 0 → (m < x ∧ m < y) ∨ (x < -m ∧ y < -m) → False := by
    intro t x y t0 t1 e hxy
    rcases hxy with ⟨h1, h2⟩ | ⟨h1, h2⟩
    · have := mul_lt_mul_of_pos_left h1 (show 0 < 1 - t by linarith)
      have := mul_lt_mul_of_pos_left h2 t0
      nlinarith
    · have := mul_lt_mul_of_pos_left h1 (show 0 < 1 - t by linarith)
      have := mul_lt_mul_of_pos_left h2 t0
      nlinarith
  rcases h with ⟨h1, h2⟩ | ⟨h1, h2⟩ | h | h
  · apply hd; rw [h1, h2]; ring
  · apply hd; rw [h1, h2]; ring
  · refine comb t0 t1 ?_ h (t := t)
    simp only [area2]
    linear_combination (a1.2 - a0.2) * hx - (a1.1 - a0.1) * hy
  · refine comb s0 s1 ?_ h (t := s)
    simp only [area2]
    linear_combination (b1.1 - b0.1) * hy - (b1.2 - b0.2) * hx

/-- In exact arithmetic neither. -/
theorem exact_none {ge : Gels ℝ} (hge : GelsContract ge) {a0 a1 b0 b1 : P2} {m : ℝ} (hm : 0 ≤ m)
    (h : (a0.1 = a1.1 ∧ b0.1 = b1.1) ∨ (a0.2 = a1.2 ∧ b0.2 = b1.2) ∨ Beside m a0 a1 b0 b1 ∨ Beside m b0 b1 a0 a1) :
    edgeX ge a0 a1 b0 b1 = none := by
  by_contra hcon
  obtain ⟨p, hp⟩ := Option.ne_none_iff_exists'.mp hcon
  rw [edgeX_some hge, tol_real] at hp
  obtain ⟨hd, s, t, heq, -, s0, s1, t0, t1⟩ := hp
  norm_num at s0 s1 t0 t1
  exact no_crossing hm (by linarith) (by linarith) (by linarith) (by linarith) hd heq h

/-- Parameters and tests. -/
theorem edge_decide {t T x0 x1 s r κ M : ℝ} (ht : |t - 1 / 10 ^ 12| ≤ 1 / 10 ^ 26) (hT : |T - (1 - 1 / 10 ^ 12)| ≤ 2 / 10 ^ 14)
    (hκ : κ ≤ 4 / 10 ^ 13) (hM : M = max |s| |r|) (h0 : |x0 - s| ≤ κ * M) (h1 : |x1 - r| ≤ κ * M)
    (cs : ClearParam2 s) (cr : ClearParam2 r) : (t < x0 ∧ x0 ≤ T ∧ t < x1 ∧ x1 ≤ T) ↔ (0 < s ∧ s < 1) ∧ (0 < r ∧ r < 1) := by
  unfold ClearParam2 at *
  rw [abs_le] at ht hT
  norm_num at ht hT hκ cs cr
  have hs : |s| ≤ M := hM ▸ le_max_left _ _
  have hr : |r| ≤ M := hM ▸ le_max_right _ _
  have hM0 : 0 ≤ M := (abs_nonneg _).trans hs
  have hκM : κ * M ≤ 1 / 2500000000000 * M := mul_le_mul_of_nonneg_right hκ hM0
  constructor
  · rintro ⟨c1, c2, c3, c4⟩
    have x0b : |x0| ≤ 1 := by rw [abs_le]; constructor <;> linarith
    have x1b : |x1| ≤ 1 := by rw [abs_le]; constructor <;> linarith
    have hM1 : M ≤ 1.1 := by
      rcases max_choice |s| |r| with h | h
      · have : M = |s| := hM.trans h
        have := abs_sub_abs_le_abs_sub s x0
        rw [abs_sub_comm s] at this
        norm_num at *; linarith
      · have : M = |r| := hM.trans h
        have := abs_sub_abs_le_abs_sub r x1
        rw [abs_sub_comm r] at this
        norm_num at *; linarith
    norm_num at hM1
    rw [abs_le] at h0 h1
    refine ⟨⟨?_, ?_⟩, ?_, ?_⟩
    · linarith [h0.1, h0.2]
    · linarith [h0.1, h0.2]
    · linarith [h1.1, h1.2]
    · linarith [h1.1, h1.2]
  · rintro ⟨⟨s0, s1⟩, r0, r1⟩
    have hM1 : M ≤ 1 := by
      rw [hM, abs_of_pos s0, abs_of_pos r0]; exact max_le s1.le r1.le
    rw [abs_le] at h0 h1
    obtain ⟨cs1, cs2⟩ : 1 / 500000000000 ≤ s ∧ s ≤ 499999999999 / 500000000000 := by
      rcases cs with h | h | h
      · linarith
      · exact h
      · linarith
    obtain ⟨cr1, cr2⟩ : 1 / 500000000000 ≤ r ∧ r ≤ 499999999999 / 500000000000 := by
      rcases cr with h | h | h
      · linarith
      · exact h
      · linarith
    refine ⟨?_, ?_, ?_, ?_⟩ <;> linarith [h0.1, h0.2, h1.1, h1.2]

/-- Rounding errors of a point on an edge. -/
theorem point_near (hf : SolvesFinely rnd g u β Δ) {a d x s L R : ℝ} (hR : |a| ≤ R) (hd : |d| ≤ L) (hs : |s| ≤ 1)
    (hx : |x - s| ≤ solveError u β Δ) : |rnd (a + rnd (x * rnd d)) - (a + s * d)| ≤ crossError u β Δ L R := by
  obtain ⟨hu, -, -, -, hκ0⟩ := fine_resid hf
  have hκ := hf.small
  have hu1 := hf.unit
  unfold crossError
  generalize solveError u β Δ = κ at *
  have hR0 : 0 ≤ R := (abs_nonneg _).trans hR
  have hL0 : 0 ≤ L := (abs_nonneg _).trans hd
  have hxb : |x| ≤ 1.01 := by
    have := abs_add_le s (x - s); rw [add_sub_cancel] at this; norm_num at *; linarith
  have d1 := rnd_near hf.rounds d
  have huR : 0 ≤ u * R := by positivity
  have huL : 0 ≤ u * L := by positivity
  have hκL : 0 ≤ κ * L := by positivity
  have hus : u * L ≤ 0.01 * L := mul_le_mul_of_nonneg_right (by norm_num at *; linarith) hL0
  have d1' : |rnd d - d| ≤ u * L := d1.trans (mul_le_mul_of_nonneg_left hd hu)
  have hdb : |rnd d| ≤ 1.01 * L := by
    have := abs_add_le d (rnd d - d); rw [add_sub_cancel] at this; norm_num at *; linarith
  have e1 : |x * rnd d - s * d| ≤ κ * L + 1.01 * (u * L) := by
    have e : x * rnd d - s * d = (x - s) * d + x * (rnd d - d) := by ring
    rw [e]
    have t1 := abs_add_le ((x - s) * d) (x * (rnd d - d))
    rw [abs_mul, abs_mul] at t1
    have t2 : |x - s| * |d| ≤ κ * L := mul_le_mul hx hd (abs_nonneg _) hκ0
    have t3 : |x| * |rnd d - d| ≤ 1.01 * (u * L) := mul_le_mul hxb d1' (abs_nonneg _) (by norm_num)
    norm_num at *; linarith
  have p1 : |x * rnd d| ≤ 1.1 * L := by
    rw [abs_mul]
    have : |x| * |rnd d| ≤ 1.01 * (1.01 * L) := mul_le_mul hxb hdb (abs_nonneg _) (by norm_num)
    norm_num at *; linarith
  have e2 : |rnd (x * rnd d) - x * rnd d| ≤ 1.1 * (u * L) := by
    refine (rnd_near hf.rounds _).trans ?_
    have := mul_le_mul_of_nonneg_left p1 hu
    linarith
  have p2 : |a + rnd (x * rnd d)| ≤ R + 1.2 * L := by
    have t := abs_add_le a (rnd (x * rnd d))
    have t' := abs_add_le (x * rnd d) (rnd (x * rnd d) - x * rnd d)
    rw [add_sub_cancel] at t'
    norm_num at *; linarith
  have e3 : |rnd (a + rnd (x * rnd d)) - (a + rnd (x * rnd d))| ≤ u * R + 1.2 * (u * L) := by
    refine (rnd_near hf.rounds _).trans ?_
    have := mul_le_mul_of_nonneg_left p2 hu
    linarith
  have e : rnd (a + rnd (x * rnd d)) - (a + s * d) =
      (rnd (a + rnd (x * rnd d)) - (a + rnd (x * rnd d))) + (rnd (x * rnd d) - x * rnd d) + (x * rnd d - s * d) := by ring
  rw [e]
  have f1 := abs_add_le (rnd (a + rnd (x * rnd d)) - (a + rnd (x * rnd d)) + (rnd (x * rnd d) - x * rnd d)) (x * rnd d - s * d)
  have f2 := abs_add_le (rnd (a + rnd (x * rnd d)) - (a + rnd (x * rnd d))) (rnd (x * rnd d) - x * rnd d)
  norm_num at *
  linarith

/-- The crossing of safe edges is that of exact arithmetic, up to the error of its coordinates. -/
theorem edgeX_near (hf : SolvesFinely rnd g u β Δ) {ge : Gels ℝ} (hge : GelsContract ge) {a0 a1 b0 b1 : Pt (Fl rnd)} {L R : ℝ}
    (ha0 : |a0.1.val| ≤ R ∧ |a0.2.val| ≤ R) (ha1 : |a1.1.val - a0.1.val| ≤ L ∧ |a1.2.val - a0.2.val| ≤ L)
    (hs : SafeEdges Δ (valPt a0) (valPt a1) (valPt b0) (valPt b1)) :
    Option.Rel (NearPt (crossError u β Δ L R)) (edgeX g a0 a1 b0 b1) (edgeX ge (valPt a0) (valPt a1) (valPt b0) (valPt b1)) := by
  have hm : 0 ≤ Δ / 10 ^ 12 * (dist (valPt a0) (valPt a1) + dist (valPt b0) (valPt b1) + dist (valPt a0) (valPt b0)) ^ 2 := by
    have := hf.shape; positivity
  rcases hs with h | h | h | h | ⟨hd, hda, hdb, hcl⟩
  · rw [exact_none hge hm (Or.inl h), edgeX_of_not (not_accepted_axis hf (Or.inl h))]; exact Option.Rel.none
  · rw [exact_none hge hm (Or.inr (Or.inl h)), edgeX_of_not (not_accepted_axis hf (Or.inr h))]; exact Option.Rel.none
  · rw [exact_none hge hm (Or.inr (Or.inr (Or.inl h))), edgeX_of_not (not_accepted_beside hf (Or.inl h))]; exact Option.Rel.none
  · rw [exact_none hge hm (Or.inr (Or.inr (Or.inr h))), edgeX_of_not (not_accepted_beside hf (Or.inr h))]; exact Option.Rel.none
  · set A0 := valPt a0 with hA0
    set A1 := valPt a1 with hA1
    set B0 := valPt b0 with hB0
    set B1 := valPt b1 with hB1
    set D := (A1.1 - A0.1) * (B1.2 - B0.2) - (A1.2 - A0.2) * (B1.1 - B0.1) with hD
    set s := ((B0.1 - A0.1) * (B1.2 - B0.2) - (B0.2 - A0.2) * (B1.1 - B0.1)) / D with hs
    set t := ((B0.1 - A0.1) * (A1.2 - A0.2) - (B0.2 - A0.2) * (A1.1 - A0.1)) / D with ht
    have hsD : s * D = (B0.1 - A0.1) * (B1.2 - B0.2) - (B0.2 - A0.2) * (B1.1 - B0.1) := div_mul_cancel₀ _ hd
    have htD : t * D = (B0.1 - A0.1) * (A1.2 - A0.2) - (B0.2 - A0.2) * (A1.1 - A0.1) := div_mul_cancel₀ _ hd
    have heq1 : s * (A1.1 - A0.1) + t * (B0.1 - B1.1) = B0.1 - A0.1 := by
      refine mul_right_cancel₀ hd ?_
      rw [hD] at hsD htD ⊢
      linear_combination (A1.1 - A0.1) * hsD + (B0.1 - B1.1) * htD
    have heq2 : s * (A1.2 - A0.2) + t * (B0.2 - B1.2) = B0.2 - A0.2 := by
      refine mul_right_cancel₀ hd ?_
      rw [hD] at hsD htD ⊢
      linear_combination (A1.2 - A0.2) * hsD + (B0.2 - B1.2) * htD
    have heq : A0 + s • (A1 - A0) = B0 + t • (B1 - B0) := by
      refine Prod.ext ?_ ?_
      · show A0.1 + s * (A1.1 - A0.1) = B0.1 + t * (B1.1 - B0.1); linear_combination heq1
      · show A0.2 + s * (A1.2 - A0.2) = B0.2 + t * (B1.2 - B0.2); linear_combination heq2
    obtain ⟨cs, ct⟩ := hcl s t heq
    have hSpos : 0 < max (dist A0 A1) (dist B0 B1) := by
      by_contra hcon
      push Not at hcon
      have e1 : dist A0 A1 = 0 := le_antisymm ((le_max_left _ _).trans hcon) dist_nonneg
      rw [dist_eq_zero] at e1
      apply hd
      rw [hD, e1]; ring
    have hdet : edgeMat A0 A1 B0 B1 0 * edgeMat A0 A1 B0 B1 3 - edgeMat A0 A1 B0 B1 1 * edgeMat A0 A1 B0 B1 2 = -D := by
      simp only [edgeMat, hD]; ring
    obtain ⟨hi, s0, s1⟩ := solved hf (a := edgeMat a0 a1 b0 b1) (b := triRhs b0 a0) (A := edgeMat A0 A1 B0 B1)
      (B := triRhs B0 A0) (S := max (dist A0 A1) (dist B0 B1)) (y0 := s) (y1 := t) (M := max |s| |t|)
      (fun k _ => edgeMat_val a0 a1 b0 b1 k) (fun k _ => triRhs_val b0 a0 k) (edge_bound _ _ _ _) hSpos (by
        rw [hdet, abs_neg]
        rcases max_choice (dist A0 A1) (dist B0 B1) with h | h
        · rw [h]; exact hda
        · rw [h]; exact hdb)
      (by simp only [edgeMat, triRhs]; linear_combination heq1) (by simp only [edgeMat, triRhs]; linear_combination heq2)
      (le_max_left _ _) (le_max_right _ _)
    have hdec := edge_decide (tol_near hf) (one_tol_near hf).2 hf.small rfl s0 s1 cs ct
    by_cases hin : (0 < s ∧ s < 1) ∧ (0 < t ∧ t < 1)
    · have hacc : Accepted g a0 a1 b0 b1 := by
        obtain ⟨c1, c2, c3, c4⟩ := hdec.2 hin
        exact ⟨by rw [hi]; exact lt_irrefl _, c1, c2, c3, c4⟩
      have hex : edgeX ge A0 A1 B0 B1 = some (A0 + s • (A1 - A0)) := by
        rw [edgeX_some hge, tol_real]
        refine ⟨hd, s, t, heq, rfl, ?_⟩
        unfold ClearParam2 at cs ct
        norm_num at cs ct ⊢
        obtain ⟨⟨i1, i2⟩, i3, i4⟩ := hin
        refine ⟨?_, ?_, ?_, ?_⟩
        · rcases cs with h | h | h <;> linarith
        · rcases cs with h | h | h <;> linarith
        · rcases ct with h | h | h <;> linarith
        · rcases ct with h | h | h <;> linarith
      rw [edgeX_of hacc, hex]
      have hM1 : max |s| |t| ≤ 1 := by
        rw [abs_of_pos hin.1.1, abs_of_pos hin.2.1]; exact max_le hin.1.2.le hin.2.2.le
      have hκ0 := (fine_resid hf).2.2.2.2
      have s0' := s0.trans (mul_le_of_le_one_right hκ0 hM1)
      have hsa : |s| ≤ 1 := (le_max_left _ _).trans hM1
      exact Option.Rel.some ⟨point_near hf ha0.1 ha1.1 hsa s0', point_near hf ha0.2 ha1.2 hsa s0'⟩
    · have hacc : ¬ Accepted g a0 a1 b0 b1 := by
        rintro ⟨-, c1, c2, c3, c4⟩
        exact hin (hdec.1 ⟨c1, c2, c3, c4⟩)
      have hex : edgeX ge A0 A1 B0 B1 = none := by
        by_contra hcon
        obtain ⟨p, hp⟩ := Option.ne_none_iff_exists'.mp hcon
        rw [edgeX_some hge, tol_real] at hp
        obtain ⟨-, s', t', heq', -, i1, i2, i3, i4⟩ := hp
        have e : s' = s ∧ t' = t := by
          have e1 : s' * (A1.1 - A0.1) + t' * (B0.1 - B1.1) = B0.1 - A0.1 := by
            have : A0.1 + s' * (A1.1 - A0.1) = B0.1 + t' * (B1.1 - B0.1) := congrArg Prod.fst heq'
            linear_combination this
          have e2 : s' * (A1.2 - A0.2) + t' * (B0.2 - B1.2) = B0.2 - A0.2 := by
            have : A0.2 + s' * (A1.2 - A0.2) = B0.2 + t' * (B1.2 - B0.2) := congrArg Prod.snd heq'
            linear_combination this
          refine unique2 (a0 := A1.1 - A0.1) (a1 := B0.1 - B1.1) (a2 := A1.2 - A0.2) (a3 := B0.2 - B1.2) ?_ ?_ ?_
          · intro h0; apply hd; rw [hD]; linear_combination -h0
          · linear_combination e1 - heq1
          · linear_combination e2 - heq2
        rw [e.1] at i1 i2
        rw [e.2] at i3 i4
        norm_num at i1 i2 i3 i4
        exact hin ⟨⟨by linarith, by linarith⟩, by linarith, by linarith⟩
      rw [edgeX_of_not hacc, hex]
      exact Option.Rel.none

/-! ### All the points -/

theorem inCell_near (hf : SolvesFinely rnd g u β Δ) {ge : Gels ℝ} (hge : GelsContract ge) {p : Pt (Fl rnd)} {q : Quad (Fl rnd)}
    (hs : ShapedBy Δ (valQuad q 0) (valQuad q 1) (valQuad q 3) ∧ ShapedBy Δ (valQuad q 2) (valQuad q 3) (valQuad q 1))
    (hc : ClearOfSides2 (valQuad q 0) (valQuad q 1) (valQuad q 3) (valPt p) ∧
      ClearOfSides2 (valQuad q 2) (valQuad q 3) (valQuad q 1) (valPt p)) :
    inCell g p q = inCell ge (valPt p) (valQuad q) := by
  unfold inCell
  rw [inTri_near hf hge hs.1 hc.1, inTri_near hf hge hs.2 hc.2]
  rfl

theorem forall₂_flatMap {α β γ : Type} {R : α → β → Prop} {f : γ → List α} {h : γ → List β} (l : List γ)
    (H : ∀ c ∈ l, List.Forall₂ R (f c) (h c)) : List.Forall₂ R (l.flatMap f) (l.flatMap h) := by
  induction l with
  | nil => exact List.Forall₂.nil
  | cons c l ih =>
    rw [List.flatMap_cons, List.flatMap_cons]
    exact List.rel_append (H c (by simp)) (ih fun c' hc' => H c' (by simp [hc']))

theorem crossError_nonneg (hf : SolvesFinely rnd g u β Δ) {L R : ℝ} (hL : 0 ≤ L) (hR : 0 ≤ R) : 0 ≤ crossError u β Δ L R := by
  obtain ⟨hu, -, -, -, hκ0⟩ := fine_resid hf
  unfold crossError
  positivity

theorem nodesIn_near (hf : SolvesFinely rnd g u β Δ) {ge : Gels ℝ} (hge : GelsContract ge) {n q : Quad (Fl rnd)} {ρ : ℝ} (hρ : 0 ≤ ρ)
    (hs : ShapedBy Δ (valQuad q 0) (valQuad q 1) (valQuad q 3) ∧ ShapedBy Δ (valQuad q 2) (valQuad q 3) (valQuad q 1))
    (hc : ∀ i, ClearOfSides2 (valQuad q 0) (valQuad q 1) (valQuad q 3) (valQuad n i) ∧
      ClearOfSides2 (valQuad q 2) (valQuad q 3) (valQuad q 1) (valQuad n i)) (i : Nat) :
    List.Forall₂ (NearPt ρ) (nodeHit g n q i) (nodeHit ge (valQuad n) (valQuad q) i) := by
  unfold nodeHit
  rw [inCell_near hf hge hs (hc (node i))]
  have e : valQuad n (node i) = valPt (n (node i)) := rfl
  rw [e]
  by_cases h : inCell ge (valPt (n (node i))) (valQuad q) = true
  · rw [if_pos h, if_pos h]
    refine List.Forall₂.cons ?_ List.Forall₂.nil
    simp [NearPt, valPt, hρ]
  · rw [if_neg h, if_neg h]
    exact List.Forall₂.nil

theorem edgeHit_near (hf : SolvesFinely rnd g u β Δ) {ge : Gels ℝ} (hge : GelsContract ge) {q1 q2 : Quad (Fl rnd)} {L R : ℝ}
    (hR : SizedBy L R (valQuad q1))
    (he : ∀ i j, SafeEdges Δ (valQuad q1 i) (valQuad q1 (i + 1)) (valQuad q2 j) (valQuad q2 (j + 1))) (i j : Nat) :
    List.Forall₂ (NearPt (crossError u β Δ L R)) (edgeHit g q1 q2 i j) (edgeHit ge (valQuad q1) (valQuad q2) i j) := by
  have h := he (node i) (node j)
  rw [← node_succ, ← node_succ] at h
  have := edgeX_near hf hge (L := L) (R := R) ⟨(hR (node i) (node i)).1, (hR (node i) (node i)).2.1⟩ (hR (node (i + 1)) (node i)).2.2 h
  unfold edgeHit
  change List.Forall₂ _ _ (edgeX ge (valPt (q1 (node i))) (valPt (q1 (node (i + 1)))) (valPt (q2 (node j))) (valPt (q2 (node (j + 1))))).toList
  revert this
  generalize edgeX g (q1 (node i)) (q1 (node (i + 1))) (q2 (node j)) (q2 (node (j + 1))) = x
  generalize edgeX ge (valPt (q1 (node i))) (valPt (q1 (node (i + 1)))) (valPt (q2 (node j))) (valPt (q2 (node (j + 1)))) = y
  rintro (h | _)
  · exact List.Forall₂.cons h List.Forall₂.nil
  · exact List.Forall₂.nil

/-- The collected points are those of exact arithmetic, up to the error of the crossings. -/
theorem collected_near (hf : SolvesFinely rnd g u β Δ) {ge : Gels ℝ} (hge : GelsContract ge) {q1 q2 : Quad (Fl rnd)} {L R : ℝ}
    (hR : SizedBy L R (valQuad q1)) (hs : SafePair Δ (valQuad q1) (valQuad q2)) :
    List.Forall₂ (NearPt (crossError u β Δ L R)) (collected g q1 q2) (collected ge (valQuad q1) (valQuad q2)) := by
  have hρ := crossError_nonneg hf ((abs_nonneg _).trans (hR 0 0).2.2.1) ((abs_nonneg _).trans (hR 0 0).1)
  unfold collected nodesIn crossings
  refine List.rel_append (List.rel_append ?_ ?_) ?_
  · exact forall₂_flatMap _ fun i _ => nodesIn_near hf hge hρ hs.shaped2 hs.nodes12 i
  · exact forall₂_flatMap _ fun i _ => nodesIn_near hf hge hρ hs.shaped1 hs.nodes21 i
  · exact forall₂_flatMap _ fun i _ => forall₂_flatMap _ fun j _ => edgeHit_near hf hge hR hs.edges i j

/-! ### The points of exact arithmetic -/

/-- For safe edges the crossing in exact arithmetic is the proper crossing. -/
theorem edgeX_safe {ge : Gels ℝ} (hge : GelsContract ge) {Δ : ℝ} (hΔ : 0 ≤ Δ) {a0 a1 b0 b1 p : P2} (hs : SafeEdges Δ a0 a1 b0 b1) :
    edgeX ge a0 a1 b0 b1 = some p ↔ (a1 - a0).1 * (b1 - b0).2 - (a1 - a0).2 * (b1 - b0).1 ≠ 0 ∧
      p ∈ openSegment ℝ a0 a1 ∧ p ∈ openSegment ℝ b0 b1 := by
  by_cases hb : (a0.1 = a1.1 ∧ b0.1 = b1.1) ∨ (a0.2 = a1.2 ∧ b0.2 = b1.2) ∨
      Beside (Δ / 10 ^ 12 * (dist a0 a1 + dist b0 b1 + dist a0 b0) ^ 2) a0 a1 b0 b1 ∨
      Beside (Δ / 10 ^ 12 * (dist a0 a1 + dist b0 b1 + dist a0 b0) ^ 2) b0 b1 a0 a1
  · have hm : 0 ≤ Δ / 10 ^ 12 * (dist a0 a1 + dist b0 b1 + dist a0 b0) ^ 2 := by positivity
    rw [exact_none hge hm hb]
    refine ⟨fun h => (by cases h), ?_⟩
    rintro ⟨hne, hp1, hp2⟩
    obtain ⟨s, s0, s1, rfl⟩ := mem_openSegment_iff.mp hp1
    obtain ⟨t, t0, t1, heq⟩ := mem_openSegment_iff.mp hp2
    exact absurd hb (no_crossing hm s0 s1 t0 t1 hne heq)
  · refine edgeX_clear hge ?_
    have h : SafeEdges Δ a0 a1 b0 b1 := hs
    unfold SafeEdges at h
    rcases h with h | h | h | h | ⟨-, -, -, h⟩
    · exact absurd (Or.inl h) hb
    · exact absurd (Or.inr (Or.inl h)) hb
    · exact absurd (Or.inr (Or.inr (Or.inl h))) hb
    · exact absurd (Or.inr (Or.inr (Or.inr h))) hb
    · intro _ s t heq
      obtain ⟨cs, ct⟩ := h s t heq
      have key : ∀ r : ℝ, ClearParam2 r → ClearParam r := by
        rintro r (h | h | h)
        · exact Or.inl h
        · refine Or.inr (Or.inl ?_); constructor <;> norm_num at * <;> linarith
        · exact Or.inr (Or.inr h)
      exact ⟨key s cs, key t ct⟩

theorem clearOfSides_of {a b c p : P2} (h : ClearOfSides2 a b c p) : ClearOfSides a b c p := by
  intro hne u v w h1 h2
  have key : ∀ r : ℝ, ClearSign2 r → ClearSign r := by
    rintro r (h | h)
    · exact Or.inl h
    · right; norm_num at *; linarith
  obtain ⟨c1, c2, c3⟩ := h hne u v w h1 h2
  exact ⟨key u c1, key v c2, key w c3⟩

theorem collected_safe {ge : Gels ℝ} (hge : GelsContract ge) {Δ : ℝ} (hΔ : 0 ≤ Δ) {q1 q2 : Quad ℝ} (hs : SafePair Δ q1 q2) :
    ptsOf (collected ge q1 q2) = cornerPoints q1 q2 := by
  ext p
  show p ∈ collected ge q1 q2 ↔ _
  unfold collected
  rw [List.mem_append, List.mem_append, mem_nodesIn, mem_nodesIn, mem_crossings, or_assoc]
  refine or_congr ?_ (or_congr ?_ ?_)
  · refine exists_congr fun i => and_congr_right fun hp => ?_
    rw [hp]; exact inCell_iff hge hs.convex.2 ((hs.nodes12 i).imp clearOfSides_of clearOfSides_of)
  · refine exists_congr fun i => and_congr_right fun hp => ?_
    rw [hp]; exact inCell_iff hge hs.convex.1 ((hs.nodes21 i).imp clearOfSides_of clearOfSides_of)
  · exact exists_congr fun i => exists_congr fun j => edgeX_safe hge hΔ (hs.edges i j)

theorem corner_safe {ge : Gels ℝ} (hge : GelsContract ge) {Δ : ℝ} (hΔ : 0 ≤ Δ) {q1 q2 : Quad ℝ} (hs : SafePair Δ q1 q2) :
    (cornerPoints q1 q2).Finite := by
  rw [← collected_safe hge hΔ hs]
  exact List.finite_toSet _

theorem collected_le (g : Gels (Fl rnd)) (q1 q2 : Quad (Fl rnd)) : (collected g q1 q2).length ≤ 24 := by
  have h1 : ∀ n q : Quad (Fl rnd), (nodesIn g n q).length ≤ 4 := by
    intro n q
    unfold nodesIn
    rw [List.length_flatMap]
    refine (List.sum_le_card_nsmul _ 1 ?_).trans (by simp)
    intro x hx
    obtain ⟨i, _, rfl⟩ := List.mem_map.mp hx
    unfold nodeHit; split <;> simp
  have h2 : (crossings g q1 q2).length ≤ 16 := by
    unfold crossings
    rw [List.length_flatMap]
    refine (List.sum_le_card_nsmul _ 4 ?_).trans (by simp)
    intro x hx
    obtain ⟨i, _, rfl⟩ := List.mem_map.mp hx
    rw [List.length_flatMap]
    refine (List.sum_le_card_nsmul _ 1 ?_).trans (by simp)
    intro x hx
    obtain ⟨j, _, rfl⟩ := List.mem_map.mp hx
    unfold edgeHit
    cases edgeX g (q1 (node i)) (q1 (node (i + 1))) (q2 (node j)) (q2 (node (j + 1))) <;> simp
  unfold collected
  rw [List.length_append, List.length_append]
  have := h1 q1 q2
  have := h1 q2 q1
  omega

end Sg.QuadIntersect
