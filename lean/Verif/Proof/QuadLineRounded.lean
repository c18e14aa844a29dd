import Verif.Spec.RoundedLine
import Verif.Proof.QuadLine
import Verif.Proof.QuadIntersectRounded
/-
The tests of `SgQuadLineIntersect_type` in rounded arithmetic, with a backward stable solver.
-/
namespace Sg.QuadLine
open Sg Sg.LinearSolve Sg.Triangulate Sg.QuadIntersect Sg.Spec Sg.Plane

variable {rnd : ℝ → ℝ} {g : Gels (Fl rnd)} {u β Δ : ℝ}

/-! ### The half-planes of a convex quadrilateral -/

theorem signed_region {q : Fin 4 → P2} (h : ConvexQuad q) :
    ∃ σ : ℝ, (σ = 1 ∨ σ = -1) ∧ ∀ x, x ∈ quadRegion q ↔ ∀ i, 0 ≤ σ * area2 (q i) (q (i + 1)) x := by
  rcases ccw_or_rev h with h | h
  · refine ⟨1, Or.inl rfl, fun x => ?_⟩
    rw [region_iff_ccw h]
    simp only [cross_area2, one_mul]
  · refine ⟨-1, Or.inr rfl, fun x => ?_⟩
    rw [← region_rev, region_iff_ccw h]
    have e : ∀ i : Fin 4, cross (rev q i) (rev q (i + 1)) x = -1 * area2 (q (-(i + 1))) (q (-(i + 1) + 1)) x := by
      intro i
      have e : -(i + 1) + 1 = -i := (by decide : ∀ i : Fin 4, -(i + 1) + 1 = -i) i
      rw [e]
      simp only [rev, cross, area2]; ring
    constructor
    · intro hx i
      have := hx (-(i + 1))
      rw [e] at this
      have e2 : -(-(i + 1) + 1) = i := (by decide : ∀ i : Fin 4, -(-(i + 1) + 1) = i) i
      rw [e2] at this
      exact this
    · intro hx i
      rw [e]; exact hx _

theorem area2_move (a b p d : P2) (t : ℝ) : area2 a b (p + t • d) = area2 a b p + t * ((b.1 - a.1) * d.2 - (b.2 - a.2) * d.1) := by
  simp only [area2, Prod.fst_add, Prod.snd_add, Prod.smul_fst, Prod.smul_snd, smul_eq_mul]
  ring

theorem area2_line (e0 e1 a b : P2) (t : ℝ) : area2 e0 e1 (a + t • (b - a)) = area2 e0 e1 a + t * turn e0 e1 a b := by
  rw [area2_move]; rfl

theorem area2_end (e0 e1 a b : P2) : area2 e0 e1 b = area2 e0 e1 a + turn e0 e1 a b := by
  simp only [area2, turn]; ring

/-- A convex quadrilateral has nodes off the line of each proper edge. -/
theorem off_edge {q : Fin 4 → P2} (h : ConvexQuad q) {i : Fin 4} (hne : q i ≠ q (i + 1)) : ∃ j, area2 (q i) (q (i + 1)) (q j) ≠ 0 := by
  by_contra hcon
  push Not at hcon
  obtain ⟨-, k, hk⟩ := h
  apply hk
  -- all nodes on one line
  have key : ∀ {a b x y z : P2}, a ≠ b → area2 a b x = 0 → area2 a b y = 0 → area2 a b z = 0 → area2 x y z = 0 := by
    intro a b x y z hab hx hy hz
    simp only [area2] at *
    by_cases h1 : b.1 - a.1 = 0
    · have h2 : b.2 - a.2 ≠ 0 := fun h2 => hab (Prod.ext (by linarith) (by linarith))
      rw [h1] at hx hy hz
      have hx' : x.1 = a.1 := by
        have : (b.2 - a.2) * (x.1 - a.1) = 0 := by linarith
        rcases mul_eq_zero.mp this with h | h
        · exact absurd h h2
        · linarith
      have hy' : y.1 = a.1 := by
        have : (b.2 - a.2) * (y.1 - a.1) = 0 := by linarith
        rcases mul_eq_zero.mp this with h | h
        · exact absurd h h2
        · linarith
      have hz' : z.1 = a.1 := by
        have : (b.2 - a.2) * (z.1 - a.1) = 0 := by linarith
        rcases mul_eq_zero.mp this with h | h
        · exact absurd h h2
        · linarith
      rw [hx', hy', hz']; ring
    · refine (mul_eq_zero.mp ?_).resolve_left h1
      linear_combination (y.1 - x.1) * hz - (z.1 - x.1) * hy + (z.1 - y.1) * hx
  exact key hne (hcon _) (hcon _) (hcon _)

/-- What the sides of an edge mean for the sign of the quadrilateral. -/
theorem sign_of {q : Fin 4 → P2} (h : ConvexQuad q) {σ : ℝ} (hσ : σ = 1 ∨ σ = -1)
    (hr : ∀ x, x ∈ quadRegion q ↔ ∀ i, 0 ≤ σ * area2 (q i) (q (i + 1)) x) {i : Fin 4} {P Q : Prop}
    (hd : ((∀ j, 0 ≤ area2 (q i) (q (i + 1)) (q j)) ∧ P) ∨ ((∀ j, area2 (q i) (q (i + 1)) (q j) ≤ 0) ∧ Q)) (hne : q i ≠ q (i + 1)) :
    (σ = 1 ∧ P) ∨ (σ = -1 ∧ Q) := by
  obtain ⟨j, hj⟩ := off_edge h hne
  have hm := (hr (q j)).mp (mem_region q j) i
  rcases hd with ⟨h1, hp⟩ | ⟨h1, hp⟩ <;> rcases hσ with rfl | rfl
  · exact Or.inl ⟨rfl, hp⟩
  · exact absurd (le_antisymm (by linarith) (h1 j)) hj
  · exact absurd (le_antisymm (h1 j) (by linarith)) hj
  · exact Or.inr ⟨rfl, hp⟩

/-! ### The parameters near the quadrilateral -/

/-- The point at a parameter is inside the half-planes, up to a margin. -/
def NearParam (m σ : ℝ) (q : Fin 4 → P2) (a b : P2) (t : ℝ) : Prop :=
  ∀ i, -m ≤ σ * area2 (q i) (q (i + 1)) (a + t • (b - a))

theorem lineTol_pos : 0 < lineTol := by unfold lineTol; positivity

theorem area2_le {L : ℝ} {a b c : P2} (h1 : dist a b ≤ L) (h2 : dist a c ≤ L) : |area2 a b c| ≤ 2 * L ^ 2 := by
  have d1 := abs_sub_le_dist a b
  have d2 := abs_sub_le_dist a c
  have hL : 0 ≤ L := dist_nonneg.trans h1
  unfold area2
  have k1 : |(b.1 - a.1) * (c.2 - a.2)| ≤ L * L := by
    rw [abs_mul]; exact mul_le_mul (d1.1.trans h1) (d2.2.trans h2) (abs_nonneg _) hL
  have k2 : |(b.2 - a.2) * (c.1 - a.1)| ≤ L * L := by
    rw [abs_mul]; exact mul_le_mul (d1.2.trans h1) (d2.1.trans h2) (abs_nonneg _) hL
  have := abs_sub ((b.1 - a.1) * (c.2 - a.2)) ((b.2 - a.2) * (c.1 - a.1))
  nlinarith

theorem turn_le {L : ℝ} {e0 e1 a b : P2} (h1 : dist e0 e1 ≤ L) (h2 : dist a b ≤ L) : |turn e0 e1 a b| ≤ 2 * L ^ 2 := by
  have d1 := abs_sub_le_dist e0 e1
  have d2 := abs_sub_le_dist a b
  have hL : 0 ≤ L := dist_nonneg.trans h1
  unfold turn
  have k1 : |(e1.1 - e0.1) * (b.2 - a.2)| ≤ L * L := by
    rw [abs_mul]; exact mul_le_mul (d1.1.trans h1) (d2.2.trans h2) (abs_nonneg _) hL
  have k2 : |(e1.2 - e0.2) * (b.1 - a.1)| ≤ L * L := by
    rw [abs_mul]; exact mul_le_mul (d1.2.trans h1) (d2.1.trans h2) (abs_nonneg _) hL
  have := abs_sub ((e1.1 - e0.1) * (b.2 - a.2)) ((e1.2 - e0.2) * (b.1 - a.1))
  nlinarith

section clip
variable {L : ℝ} {q : Fin 4 → P2} {a b : P2}

/-- What is known of an edge. -/
theorem edge_cases (hf : FairLine Δ L q a b) {σ : ℝ} (hσ : σ = 1 ∨ σ = -1)
    (hr : ∀ x, x ∈ quadRegion q ↔ ∀ i, 0 ≤ σ * area2 (q i) (q (i + 1)) x) (i : Fin 4) :
    Δ * L ^ 2 ≤ |σ * turn (q i) (q (i + 1)) a b| ∨
    (0 ≤ σ * area2 (q i) (q (i + 1)) a ∧ 0 ≤ σ * area2 (q i) (q (i + 1)) b) ∨
    (σ * area2 (q i) (q (i + 1)) a < -(12 * lineTol * L ^ 2) ∧ σ * area2 (q i) (q (i + 1)) b < -(12 * lineTol * L ^ 2)) := by
  have habs : ∀ x : ℝ, |σ * x| = |x| := by rcases hσ with rfl | rfl <;> simp
  by_cases hne : q i = q (i + 1)
  · right; left
    rw [← hne]
    simp [area2]
  rcases hf.edges i with h | h | h
  · left; rw [habs]; exact h
  · right; left
    rcases sign_of hf.convex hσ hr h hne with ⟨rfl, h1, h2⟩ | ⟨rfl, h1, h2⟩
    · exact ⟨by linarith, by linarith⟩
    · exact ⟨by linarith, by linarith⟩
  · right; right
    rcases sign_of hf.convex hσ hr h hne with ⟨rfl, h1, h2⟩ | ⟨rfl, h1, h2⟩
    · exact ⟨by linarith, by linarith⟩
    · exact ⟨by linarith, by linarith⟩

theorem L_pos (hf : FairLine Δ L q a b) : 0 < L := (dist_pos.mpr hf.proper).trans_le hf.length

/-- Between two parameters near the quadrilateral, and further from them than the error, everything is inside. -/
theorem between_inside (hf : FairLine Δ L q a b) (hΔ : 0 < Δ) (hΔ1 : Δ ≤ 1) {σ : ℝ} (hσ : σ = 1 ∨ σ = -1)
    (hr : ∀ x, x ∈ quadRegion q ↔ ∀ i, 0 ≤ σ * area2 (q i) (q (i + 1)) x) {s t r : ℝ}
    (hs : NearParam (8 * lineTol * L ^ 2) σ q a b s) (ht : NearParam (8 * lineTol * L ^ 2) σ q a b t)
    (s0 : -(2 * lineTol) ≤ s) (s1 : s ≤ 1 + 2 * lineTol)
    (h0 : 0 ≤ r) (h1 : r ≤ 1) (hsr : s + clipError Δ ≤ r) (hrt : r + clipError Δ ≤ t) : r ∈ insideParams q a b := by
  refine ⟨h0, h1, (hr _).mpr fun i => ?_⟩
  have hL := L_pos hf
  have hlt := lineTol_pos
  have hce : clipError Δ * (Δ * L ^ 2) = 8 * lineTol * L ^ 2 := by unfold clipError; field_simp
  have hs := hs i
  have ht := ht i
  rw [area2_line] at hs ht ⊢
  set k := turn (q i) (q (i + 1)) a b with hk
  set A := area2 (q i) (q (i + 1)) a with hA
  have hB := area2_end (q i) (q (i + 1)) a b
  rw [← hA, ← hk] at hB
  rcases edge_cases hf hσ hr i with h | ⟨h, h'⟩ | ⟨h, h'⟩
  · rw [← hk] at h
    rcases le_total 0 (σ * k) with hp | hp
    · rw [abs_of_nonneg hp] at h
      have c1 : clipError Δ * (Δ * L ^ 2) ≤ (r - s) * (σ * k) :=
        mul_le_mul (by linarith) h (by positivity) (by unfold clipError at *; have : 0 ≤ 8 * lineTol / Δ := by positivity
                                                       linarith)
      nlinarith
    · rw [abs_of_nonpos hp] at h
      have c1 : clipError Δ * (Δ * L ^ 2) ≤ (t - r) * -(σ * k) :=
        mul_le_mul (by linarith) h (by positivity) (by unfold clipError at *; have : 0 ≤ 8 * lineTol / Δ := by positivity
                                                       linarith)
      nlinarith
  · rw [← hA] at h
    rw [hB] at h'
    have : σ * (A + r * k) = (1 - r) * (σ * A) + r * (σ * (A + k)) := by ring
    rw [this]
    have := mul_nonneg (sub_nonneg.mpr h1) h
    have := mul_nonneg h0 h'
    linarith
  · exfalso
    rw [← hA] at h
    rw [hB] at h'
    have e : σ * (A + s * k) = (1 - s) * (σ * A) + s * (σ * (A + k)) := by ring
    have hkl : |σ * k| ≤ 2 * L ^ 2 := by
      have : |σ * k| = |k| := by rcases hσ with rfl | rfl <;> simp
      rw [this]; exact turn_le (hf.size _ _) hf.length
    rw [abs_le] at hkl
    have hL2 : 0 < lineTol * L ^ 2 := by positivity
    rcases le_total s 0 with c | c
    · -- close to the start
      have e2 : σ * (A + s * k) = σ * A + s * (σ * k) := by ring
      have : s * (σ * k) ≤ 2 * lineTol * (2 * L ^ 2) := by
        have := mul_le_mul (show -s ≤ 2 * lineTol by linarith) (show -(σ * k) ≤ 2 * L ^ 2 by linarith [hkl.1])
        rcases le_total 0 (-(σ * k)) with c2 | c2
        · have := this c2 (by positivity); nlinarith
        · have : s * (σ * k) ≤ 0 := mul_nonpos_of_nonpos_of_nonneg c (by linarith)
          nlinarith
      nlinarith
    · rcases le_total s 1 with c' | c'
      · have p1 := mul_le_mul_of_nonneg_left h.le (sub_nonneg.mpr c')
        have p2 := mul_le_mul_of_nonneg_left h'.le c
        nlinarith
      · have e2 : σ * (A + s * k) = σ * (A + k) + (s - 1) * (σ * k) := by ring
        have : (s - 1) * (σ * k) ≤ 2 * lineTol * (2 * L ^ 2) := by
          rcases le_total 0 (σ * k) with c2 | c2
          · exact mul_le_mul (by linarith) hkl.2 c2 (by positivity)
          · have : (s - 1) * (σ * k) ≤ 0 := mul_nonpos_of_nonneg_of_nonpos (by linarith) c2
            nlinarith
        nlinarith

theorem clip_pos (hΔ : 0 < Δ) (hΔ1 : Δ ≤ 1) : 8 * lineTol ≤ clipError Δ := by
  unfold clipError
  rw [le_div_iff₀ hΔ]
  have := lineTol_pos
  nlinarith

/-- Nothing near is before the first parameter inside, or after the last, by more than the error. -/
theorem near_bounds (hf : FairLine Δ L q a b) (hΔ : 0 < Δ) (hΔ1 : Δ ≤ 1) {σ : ℝ} (hσ : σ = 1 ∨ σ = -1)
    (hr : ∀ x, x ∈ quadRegion q ↔ ∀ i, 0 ≤ σ * area2 (q i) (q (i + 1)) x) {s lo hi : ℝ}
    (hs : NearParam (8 * lineTol * L ^ 2) σ q a b s) (s0 : -(2 * lineTol) ≤ s) (s1 : s ≤ 1 + 2 * lineTol)
    (hlo : IsLeast (insideParams q a b) lo) (hhi : IsGreatest (insideParams q a b) hi) :
    lo - clipError Δ ≤ s ∧ s ≤ hi + clipError Δ := by
  have hce := clip_pos hΔ hΔ1
  have hlt := lineTol_pos
  have hL := L_pos hf
  have hmul : clipError Δ * (Δ * L ^ 2) = 8 * lineTol * L ^ 2 := by unfold clipError; field_simp
  have key : ∀ r p : ℝ, p ∈ insideParams q a b → 0 ≤ r → r ≤ 1 → ((s + clipError Δ ≤ r ∧ r ≤ p) ∨ (p ≤ r ∧ r + clipError Δ ≤ s)) →
      r ∈ insideParams q a b := by
    intro r p hp r0 r1 hd
    refine ⟨r0, r1, (hr _).mpr fun i => ?_⟩
    have hs := hs i
    have hp' := (hr _).mp hp.2.2 i
    have hp0 := hp.1
    have hp1 := hp.2.1
    rw [area2_line] at hs hp' ⊢
    set k := turn (q i) (q (i + 1)) a b with hk
    set A := area2 (q i) (q (i + 1)) a with hA
    have hB := area2_end (q i) (q (i + 1)) a b
    rw [← hA, ← hk] at hB
    rcases edge_cases hf hσ hr i with h | ⟨h, h'⟩ | ⟨h, h'⟩
    · rw [← hk] at h
      rcases hd with ⟨d1, d2⟩ | ⟨d1, d2⟩ <;> rcases le_total 0 (σ * k) with hp | hp
      · rw [abs_of_nonneg hp] at h
        have c1 : clipError Δ * (Δ * L ^ 2) ≤ (r - s) * (σ * k) := mul_le_mul (by linarith) h (by positivity) (by linarith)
        nlinarith
      · have := mul_nonneg (sub_nonneg.mpr d2) (neg_nonneg.mpr hp)
        nlinarith
      · have := mul_nonneg (sub_nonneg.mpr d1) hp
        nlinarith
      · rw [abs_of_nonpos hp] at h
        have c1 : clipError Δ * (Δ * L ^ 2) ≤ (s - r) * -(σ * k) := mul_le_mul (by linarith) h (by positivity) (by linarith)
        nlinarith
    · rw [← hA] at h
      rw [hB] at h'
      have : σ * (A + r * k) = (1 - r) * (σ * A) + r * (σ * (A + k)) := by ring
      rw [this]
      have := mul_nonneg (sub_nonneg.mpr r1) h
      have := mul_nonneg r0 h'
      linarith
    · exfalso
      rw [← hA] at h
      rw [hB] at h'
      have e : σ * (A + p * k) = (1 - p) * (σ * A) + p * (σ * (A + k)) := by ring
      have p1 := mul_le_mul_of_nonneg_left h.le (sub_nonneg.mpr hp1)
      have p2 := mul_le_mul_of_nonneg_left h'.le hp0
      have : 0 < 12 * lineTol * L ^ 2 := by positivity
      nlinarith
  constructor
  · by_contra hcon
    push Not at hcon
    have hlo0 : 0 < lo := by linarith
    have := key (max (s + clipError Δ) 0) lo hlo.1 (le_max_right _ _) (max_le (by linarith [hlo.1.2.1]) zero_le_one)
      (Or.inl ⟨le_max_left _ _, max_le (by linarith) hlo0.le⟩)
    have := hlo.2 this
    have : max (s + clipError Δ) 0 < lo := max_lt (by linarith) hlo0
    linarith
  · by_contra hcon
    push Not at hcon
    have hhi1 : hi < 1 := by linarith
    have := key (min (s - clipError Δ) 1) hi hhi.1 (le_min (by linarith [hhi.1.1]) zero_le_one) (min_le_right _ _)
      (Or.inr ⟨le_min (by linarith) hhi1.le, by linarith [min_le_left (s - clipError Δ) 1]⟩)
    have := hhi.2 this
    have : hi < min (s - clipError Δ) 1 := lt_min (by linarith) hhi1
    linarith

end clip

/-! ### The tolerance -/

theorem lineTol_val : lineTol = 100 / 4503599627370496 := by unfold lineTol; norm_num

theorem ltol_near (hf : SolvesLine rnd g u β Δ) : |(ltol : Fl rnd).val - lineTol| ≤ lineTol / 100 ∧
    |((1 : Fl rnd) + ltol).val - (1 + lineTol)| ≤ lineTol / 50 := by
  have hr := hf.solves.rounds
  have hu := hr.rel
  have hu1 := hf.unit
  norm_num at hu1
  have e : (ltol : Fl rnd).val = rnd (rnd ((100 : Nat) : ℝ) / rnd ((4503599627370496 : Nat) : ℝ)) := rfl
  have r1 := rnd_near hr ((100 : Nat) : ℝ)
  have r2 := rnd_near hr ((4503599627370496 : Nat) : ℝ)
  norm_num at r1 r2
  rw [abs_le] at r1 r2
  have h2 : (0 : ℝ) < rnd 4503599627370496 := by nlinarith [r2.1]
  have h3 : |rnd 100 / rnd 4503599627370496 - lineTol| ≤ lineTol / 1000 := by
    have : rnd 100 / rnd 4503599627370496 - lineTol = (rnd 100 - lineTol * rnd 4503599627370496) / rnd 4503599627370496 := by
      field_simp
    rw [this, abs_div, abs_of_pos h2, div_le_iff₀ h2, lineTol_val, abs_le]
    constructor <;> nlinarith [r1.1, r1.2, r2.1, r2.2]
  have h4 := rnd_near hr (rnd 100 / rnd 4503599627370496)
  have k1 : |(ltol : Fl rnd).val - lineTol| ≤ lineTol / 500 := by
    rw [e]
    norm_num only [Nat.cast_ofNat]
    generalize rnd 100 / rnd 4503599627370496 = z at *
    rw [lineTol_val, abs_le] at *
    have hz : |z| ≤ 1 := by rw [abs_le]; constructor <;> linarith [h3.1, h3.2]
    have : u * |z| ≤ 1 / 9007199254740992 * |z| := mul_le_mul_of_nonneg_right hu1 (abs_nonneg _)
    have hz' : |z| ≤ 101 / 4503599627370496 := by rw [abs_le]; constructor <;> linarith [h3.1, h3.2]
    constructor <;> linarith [h3.1, h3.2, h4.1, h4.2]
  refine ⟨k1.trans (by have := lineTol_pos; linarith), ?_⟩
  have e2 : ((1 : Fl rnd) + ltol).val = rnd (1 + (ltol : Fl rnd).val) := rfl
  rw [e2]
  generalize (ltol : Fl rnd).val = t at *
  have h5 := rnd_near hr (1 + t)
  have ht : |1 + t| ≤ 11 / 10 := by rw [lineTol_val, abs_le] at k1; rw [abs_le]; constructor <;> linarith [k1.1, k1.2]
  have : u * |1 + t| ≤ 1 / 9007199254740992 * (11 / 10) := mul_le_mul hu1 ht (abs_nonneg _) (by norm_num)
  rw [lineTol_val, abs_le] at *
  constructor <;> linarith [h5.1, h5.2, k1.1, k1.2]

/-! ### What is accepted is near -/

theorem fine_resid_line (hf : SolvesLine rnd g u β Δ) : 0 ≤ u ∧ u ≤ resid u β ∧ 9 * resid u β ≤ 2 / 5 * lineTol := by
  obtain ⟨h1, h2, h3, h4, h5⟩ := fine_resid hf.solves
  refine ⟨h1, h2, ?_⟩
  rw [h4]
  have := hf.solves.shape
  have := hf.shape
  have := hf.small
  have := lineTol_pos
  calc solveError u β Δ * Δ ≤ solveError u β Δ * 1 := mul_le_mul_of_nonneg_left hf.shape h5
    _ ≤ _ := by linarith

/-- Size of a residual. -/
theorem resid_small {A0 A1 x0 x1 b S ρ u : ℝ} (hS : 0 ≤ S) (h0 : |A0| ≤ S) (h1 : |A1| ≤ S) (hx0 : |x0| ≤ 11 / 10) (hx1 : |x1| ≤ 11 / 10)
    (hu : 0 ≤ u) (hub : u ≤ ρ) (hρ : ρ ≤ 1 / 100) (h : |A0 * x0 + A1 * x1 - b| ≤ ρ * S * (|x0| + |x1|) + u * |b|) :
    |A0 * x0 + A1 * x1 - b| ≤ 5 * ρ * S := by
  have hρ0 : 0 ≤ ρ := hu.trans hub
  have p0 : |A0 * x0| ≤ S * (11 / 10) := by rw [abs_mul]; exact mul_le_mul h0 hx0 (abs_nonneg _) hS
  have p1 : |A1 * x1| ≤ S * (11 / 10) := by rw [abs_mul]; exact mul_le_mul h1 hx1 (abs_nonneg _) hS
  have q0 : ρ * S * (|x0| + |x1|) ≤ ρ * S * (22 / 10) := mul_le_mul_of_nonneg_left (by linarith) (by positivity)
  have hb : |b| ≤ S * (22 / 10) + (ρ * S * (22 / 10) + u * |b|) := by
    have t1 := abs_sub (A0 * x0 + A1 * x1) (A0 * x0 + A1 * x1 - b)
    rw [sub_sub_cancel] at t1
    have := abs_add_le (A0 * x0) (A1 * x1)
    linarith
  have hb2 : u * |b| ≤ 1 / 100 * |b| := mul_le_mul_of_nonneg_right (hub.trans hρ) (abs_nonneg _)
  have hS2 : ρ * S ≤ 1 / 100 * S := mul_le_mul_of_nonneg_right hρ hS
  have hb3 : |b| ≤ 23 / 10 * S := by linarith
  have : u * |b| ≤ ρ * (23 / 10 * S) := mul_le_mul hub hb3 (abs_nonneg _) hρ0
  nlinarith

/-- A combination of the nodes, with coefficients that are not too negative, is near. -/
theorem near_comb {q : Fin 4 → P2} {L σ : ℝ} (hsize : ∀ i j, dist (q i) (q j) ≤ L) (hσ : σ = 1 ∨ σ = -1)
    (hr : ∀ x, x ∈ quadRegion q ↔ ∀ i, 0 ≤ σ * area2 (q i) (q (i + 1)) x) {j0 j1 j2 : Fin 4} {c0 c1 c2 : ℝ} {x r : P2}
    (hc0 : -(11 / 10 * lineTol) ≤ c0) (hc1 : -(11 / 10 * lineTol) ≤ c1) (hc2 : -(11 / 10 * lineTol) ≤ c2) (hsum : c0 + c1 + c2 = 1)
    (hx : x = c0 • q j0 + c1 • q j1 + c2 • q j2 + r) (hr1 : |r.1| ≤ lineTol / 4 * L) (hr2 : |r.2| ≤ lineTol / 4 * L) (i : Fin 4) :
    -(8 * lineTol * L ^ 2) ≤ σ * area2 (q i) (q (i + 1)) x := by
  have hL : 0 ≤ L := dist_nonneg.trans (hsize 0 0)
  have hlt := lineTol_pos
  have e : σ * area2 (q i) (q (i + 1)) x = c0 * (σ * area2 (q i) (q (i + 1)) (q j0)) + c1 * (σ * area2 (q i) (q (i + 1)) (q j1)) +
      c2 * (σ * area2 (q i) (q (i + 1)) (q j2)) +
      σ * (((q (i + 1)).1 - (q i).1) * r.2 - ((q (i + 1)).2 - (q i).2) * r.1) := by
    obtain rfl : c0 = 1 - c1 - c2 := by linarith
    rw [hx]
    simp only [area2, Prod.fst_add, Prod.snd_add, Prod.smul_fst, Prod.smul_snd, smul_eq_mul]
    ring
  have node : ∀ j, 0 ≤ σ * area2 (q i) (q (i + 1)) (q j) ∧ σ * area2 (q i) (q (i + 1)) (q j) ≤ 2 * L ^ 2 := by
    intro j
    refine ⟨(hr (q j)).mp (mem_region q j) i, ?_⟩
    have h1 := area2_le (hsize i (i + 1)) (hsize i j)
    have h2 : |σ * area2 (q i) (q (i + 1)) (q j)| = |area2 (q i) (q (i + 1)) (q j)| := by rcases hσ with rfl | rfl <;> simp
    rw [← h2] at h1
    exact (le_abs_self _).trans h1
  have term : ∀ (c : ℝ) (j : Fin 4), -(11 / 10 * lineTol) ≤ c →
      -(11 / 10 * lineTol * (2 * L ^ 2)) ≤ c * (σ * area2 (q i) (q (i + 1)) (q j)) := by
    intro c j hc
    obtain ⟨n0, n1⟩ := node j
    have h1 := mul_le_mul_of_nonneg_right hc n0
    have h2 : 11 / 10 * lineTol * (σ * area2 (q i) (q (i + 1)) (q j)) ≤ 11 / 10 * lineTol * (2 * L ^ 2) :=
      mul_le_mul_of_nonneg_left n1 (by positivity)
    linarith
  have d := abs_sub_le_dist (q i) (q (i + 1))
  have k1 : |((q (i + 1)).1 - (q i).1) * r.2| ≤ L * (lineTol / 4 * L) := by
    rw [abs_mul]; exact mul_le_mul (d.1.trans (hsize _ _)) hr2 (abs_nonneg _) hL
  have k2 : |((q (i + 1)).2 - (q i).2) * r.1| ≤ L * (lineTol / 4 * L) := by
    rw [abs_mul]; exact mul_le_mul (d.2.trans (hsize _ _)) hr1 (abs_nonneg _) hL
  have k3 : |σ * (((q (i + 1)).1 - (q i).1) * r.2 - ((q (i + 1)).2 - (q i).2) * r.1)| ≤ lineTol / 2 * L ^ 2 := by
    have h2 : |σ * (((q (i + 1)).1 - (q i).1) * r.2 - ((q (i + 1)).2 - (q i).2) * r.1)| =
        |((q (i + 1)).1 - (q i).1) * r.2 - ((q (i + 1)).2 - (q i).2) * r.1| := by rcases hσ with rfl | rfl <;> simp [abs_sub_comm]
    rw [h2]
    have := abs_sub (((q (i + 1)).1 - (q i).1) * r.2) (((q (i + 1)).2 - (q i).2) * r.1)
    nlinarith
  rw [abs_le] at k3
  have t0 := term c0 j0 hc0
  have t1 := term c1 j1 hc1
  have t2 := term c2 j2 hc2
  have : 0 ≤ lineTol * L ^ 2 := by positivity
  rw [e]
  nlinarith [k3.1]

theorem info_zero (hf : SolvesLine rnd g u β Δ) {a b : Nat → Fl rnd} (h : ¬ 0 < (g (args2 a b)).info) : (g (args2 a b)).info = 0 := by
  by_contra hne
  exact h (hf.solves.stable.reported _ (two_args2 _ _) hne).1

theorem nonzero_args (hf : SolvesLine rnd g u β Δ) {a b : Nat → Fl rnd} {A : Nat → ℝ} (ha : ∀ k < 4, (a k).val = rnd (A k))
    (hA : ¬ ∀ k < 4, A k = 0) : ∃ x ∈ (args2 a b).a, x.val ≠ 0 := by
  by_contra hcon
  push Not at hcon
  apply hA
  intro k hk
  by_contra hne
  refine rnd_ne_zero hf.solves hne ?_
  rw [← ha k hk]
  refine hcon (a k) ?_
  interval_cases k <;> simp [args2]

section near
variable {L : ℝ} {q : Quad (Fl rnd)} {a b : Pt (Fl rnd)}

/-- A point accepted by a triangle is near the quadrilateral. -/
theorem tri_near (hf : SolvesLine rnd g u β Δ) (hsize : ∀ i j, dist (valQuad q i) (valQuad q j) ≤ L) {σ : ℝ} (hσ : σ = 1 ∨ σ = -1)
    (hr : ∀ x, x ∈ quadRegion (valQuad q) ↔ ∀ i, 0 ≤ σ * area2 (valQuad q i) (valQuad q (i + 1)) x) {p : Pt (Fl rnd)} {j0 j1 j2 : Fin 4}
    (hne : ¬ (valQuad q j0 = valQuad q j1 ∧ valQuad q j0 = valQuad q j2)) (h : inTriL g p (q j0) (q j1) (q j2) = true) (i : Fin 4) :
    -(8 * lineTol * L ^ 2) ≤ σ * area2 (valQuad q i) (valQuad q (i + 1)) (valPt p) := by
  have hL : 0 ≤ L := dist_nonneg.trans (hsize 0 0)
  obtain ⟨t1, t2⟩ := ltol_near hf
  obtain ⟨hu, hub, hres⟩ := fine_resid_line hf
  have hlt := lineTol_pos
  have hl1 : lineTol ≤ 1 / 1000 := by rw [lineTol_val]; norm_num
  have hu2 : u ≤ lineTol / 200 := hf.unit.trans (by rw [lineTol_val]; norm_num)
  unfold inTriL at h
  dsimp only at h
  split_ifs at h with hi
  have hi0 := info_zero hf hi
  simp only [Bool.and_eq_true, decide_eq_true_eq] at h
  obtain ⟨⟨⟨c1, c2⟩, c3⟩, c4⟩ := h
  have ha : ∀ k < 4, (triMat (q j0) (q j1) (q j2) k).val = rnd (triMat (valQuad q j0) (valQuad q j1) (valQuad q j2) k) :=
    fun k _ => triMat_val _ _ _ k
  have hb : ∀ k < 2, (triRhs p (q j0) k).val = rnd (triRhs (valPt p) (valQuad q j0) k) := fun k _ => triRhs_val _ _ k
  have d1 := abs_sub_le_dist (valQuad q j0) (valQuad q j1)
  have d2 := abs_sub_le_dist (valQuad q j0) (valQuad q j2)
  have hA : ∀ k < 4, |triMat (valQuad q j0) (valQuad q j1) (valQuad q j2) k| ≤ L := by
    intro k hk
    interval_cases k
    · exact d1.1.trans (hsize _ _)
    · exact d2.1.trans (hsize _ _)
    · exact d1.2.trans (hsize _ _)
    · exact d2.2.trans (hsize _ _)
  have hz := nonzero_args hf (b := triRhs p (q j0)) ha (by
    intro hall
    have z0 := hall 0 (by norm_num)
    have z1 := hall 1 (by norm_num)
    have z2 := hall 2 (by norm_num)
    have z3 := hall 3 (by norm_num)
    simp only [triMat, sub_eq_zero] at z0 z1 z2 z3
    exact hne ⟨Prod.ext z0.symm z2.symm, Prod.ext z1.symm z3.symm⟩)
  obtain ⟨r0, r1⟩ := residual hf.solves ha hb hA hz hi0
  set x0 := entry (g (args2 (triMat (q j0) (q j1) (q j2)) (triRhs p (q j0)))).b 0 with hx0
  set x1 := entry (g (args2 (triMat (q j0) (q j1) (q j2)) (triRhs p (q j0)))).b 1 with hx1
  have c1 : -(ltol : Fl rnd).val < x0 := c1
  have c2 : x0 ≤ ((1 : Fl rnd) + ltol).val := c2
  have c3 : -(ltol : Fl rnd).val < x1 := c3
  have c4 : rnd (x0 + x1) ≤ ((1 : Fl rnd) + ltol).val := c4
  rw [abs_le] at t1 t2
  have hsum : x0 + x1 ≤ 1 + 11 / 10 * lineTol := by
    by_contra hcon
    push Not at hcon
    have h5 := (abs_le.mp (rnd_near hf.solves.rounds (x0 + x1))).1
    rw [abs_of_pos (by linarith)] at h5
    have h6 : (1 - u) * (1 + 11 / 10 * lineTol) ≤ (1 - u) * (x0 + x1) := mul_le_mul_of_nonneg_left hcon.le (by linarith)
    nlinarith [t2.1, t2.2]
  have b0 : |x0| ≤ 11 / 10 := by rw [abs_le]; constructor <;> linarith [t1.1, t1.2, t2.1, t2.2]
  have b1 : |x1| ≤ 11 / 10 := by rw [abs_le]; constructor <;> linarith [t1.1, t1.2, t2.1, t2.2]
  have hρ : resid u β ≤ 1 / 100 := by linarith
  have s0 := resid_small hL (hA 0 (by norm_num)) (hA 1 (by norm_num)) b0 b1 hu hub hρ r0
  have s1 := resid_small hL (hA 2 (by norm_num)) (hA 3 (by norm_num)) b0 b1 hu hub hρ r1
  have hbound : 5 * resid u β * L ≤ lineTol / 4 * L := mul_le_mul_of_nonneg_right (by linarith) hL
  refine near_comb hsize hσ hr (j0 := j0) (j1 := j1) (j2 := j2) (c0 := 1 - x0 - x1) (c1 := x0) (c2 := x1)
    (r := valPt p - ((1 - x0 - x1) • valQuad q j0 + x0 • valQuad q j1 + x1 • valQuad q j2)) (by linarith) (by linarith [t1.1, t1.2])
    (by linarith [t1.1, t1.2]) (by ring) (by rw [add_sub_cancel]) ?_ ?_ i
  · refine le_trans (le_of_eq ?_) (s0.trans hbound)
    rw [← abs_neg]
    congr 1
    simp only [triMat, triRhs, Prod.fst_sub, Prod.fst_add, Prod.smul_fst, smul_eq_mul]
    ring
  · refine le_trans (le_of_eq ?_) (s1.trans hbound)
    rw [← abs_neg]
    congr 1
    simp only [triMat, triRhs, Prod.snd_sub, Prod.snd_add, Prod.smul_snd, smul_eq_mul]
    ring

/-- A crossing that is accepted is near the quadrilateral. -/
theorem edge_near (hf : SolvesLine rnd g u β Δ) (hsize : ∀ i j, dist (valQuad q i) (valQuad q j) ≤ L) (hlen : dist (valPt a) (valPt b) ≤ L)
    (hab : valPt a ≠ valPt b) {σ : ℝ} (hσ : σ = 1 ∨ σ = -1)
    (hr : ∀ x, x ∈ quadRegion (valQuad q) ↔ ∀ i, 0 ≤ σ * area2 (valQuad q i) (valQuad q (i + 1)) x) {j0 j1 : Fin 4} {x : Fl rnd}
    (h : edgeLam g (q j0) (q j1) a b = some x) :
    NearParam (8 * lineTol * L ^ 2) σ (valQuad q) (valPt a) (valPt b) x.val ∧ -(2 * lineTol) ≤ x.val ∧ x.val ≤ 1 + 2 * lineTol := by
  have hL : 0 ≤ L := dist_nonneg.trans (hsize 0 0)
  obtain ⟨t1, t2⟩ := ltol_near hf
  obtain ⟨hu, hub, hres⟩ := fine_resid_line hf
  have hlt := lineTol_pos
  have hl1 : lineTol ≤ 1 / 1000 := by rw [lineTol_val]; norm_num
  have hu2 : u ≤ lineTol / 200 := hf.unit.trans (by rw [lineTol_val]; norm_num)
  unfold edgeLam at h
  dsimp only at h
  split_ifs at h with hi hc
  have hi0 := info_zero hf hi
  obtain ⟨c1, c2, c3, c4⟩ := hc
  have ha : ∀ k < 4, (edgeMat (q j0) (q j1) a b k).val = rnd (edgeMat (valQuad q j0) (valQuad q j1) (valPt a) (valPt b) k) :=
    fun k _ => edgeMat_val _ _ _ _ k
  have hb : ∀ k < 2, (triRhs a (q j0) k).val = rnd (triRhs (valPt a) (valQuad q j0) k) := fun k _ => triRhs_val _ _ k
  have hA : ∀ k < 4, |edgeMat (valQuad q j0) (valQuad q j1) (valPt a) (valPt b) k| ≤ L := fun k hk =>
    (edge_bound _ _ _ _ k hk).trans (max_le (hsize _ _) hlen)
  have hz := nonzero_args hf (b := triRhs a (q j0)) ha (by
    intro hall
    have z1 := hall 1 (by norm_num)
    have z3 := hall 3 (by norm_num)
    simp only [edgeMat, sub_eq_zero] at z1 z3
    exact hab (Prod.ext z1 z3))
  obtain ⟨r0, r1⟩ := residual hf.solves ha hb hA hz hi0
  simp only [Option.some.injEq] at h
  have hxv : x.val = entry (g (args2 (edgeMat (q j0) (q j1) a b) (triRhs a (q j0)))).b 1 := by rw [← h]; rfl
  set x0 := entry (g (args2 (edgeMat (q j0) (q j1) a b) (triRhs a (q j0)))).b 0 with hx0
  set x1 := entry (g (args2 (edgeMat (q j0) (q j1) a b) (triRhs a (q j0)))).b 1 with hx1
  have c1 : -(ltol : Fl rnd).val ≤ x0 := c1
  have c2 : x0 < ((1 : Fl rnd) + ltol).val := c2
  have c3 : -(ltol : Fl rnd).val ≤ x1 := c3
  have c4 : x1 < ((1 : Fl rnd) + ltol).val := c4
  rw [hxv]
  rw [abs_le] at t1 t2
  have b0 : |x0| ≤ 11 / 10 := by rw [abs_le]; constructor <;> linarith [t1.1, t1.2, t2.1, t2.2]
  have b1 : |x1| ≤ 11 / 10 := by rw [abs_le]; constructor <;> linarith [t1.1, t1.2, t2.1, t2.2]
  have hρ : resid u β ≤ 1 / 100 := by linarith
  have s0 := resid_small hL (hA 0 (by norm_num)) (hA 1 (by norm_num)) b0 b1 hu hub hρ r0
  have s1 := resid_small hL (hA 2 (by norm_num)) (hA 3 (by norm_num)) b0 b1 hu hub hρ r1
  have hbound : 5 * resid u β * L ≤ lineTol / 4 * L := mul_le_mul_of_nonneg_right (by linarith) hL
  refine ⟨fun i => ?_, by linarith [t1.1, t1.2], by linarith [t2.1, t2.2]⟩
  refine near_comb hsize hσ hr (j0 := j0) (j1 := j1) (j2 := 0) (c0 := 1 - x0) (c1 := x0) (c2 := 0)
    (r := valPt a + x1 • (valPt b - valPt a) - ((1 - x0) • valQuad q j0 + x0 • valQuad q j1 + (0 : ℝ) • valQuad q 0))
    (by linarith [t2.1, t2.2]) (by linarith [t1.1, t1.2])
    (by linarith) (by ring) (by rw [add_sub_cancel]) ?_ ?_ i
  · refine le_trans (le_of_eq ?_) (s0.trans hbound)
    rw [← abs_neg]
    congr 1
    simp only [edgeMat, triRhs, Prod.fst_sub, Prod.fst_add, Prod.smul_fst, smul_eq_mul]
    ring
  · refine le_trans (le_of_eq ?_) (s1.trans hbound)
    rw [← abs_neg]
    congr 1
    simp only [edgeMat, triRhs, Prod.snd_sub, Prod.snd_add, Prod.smul_snd, smul_eq_mul]
    ring

theorem mem_collectedL_fl {t : Fl rnd} :
    t ∈ collectedL g q a b ↔ (t = 0 ∧ inQuad g a q = true) ∨ (∃ i, edgeLam g (q i) (q (i + 1)) a b = some t) ∨
      (t = 1 ∧ inQuad g b q = true) := by
  unfold collectedL
  simp only [List.mem_append, List.mem_flatMap, endHit, edgeHitL, Option.mem_toList, Option.mem_def, List.mem_range]
  have e1 : ∀ (p : Pt (Fl rnd)) (x : Fl rnd), t ∈ (if inQuad g p q = true then [x] else []) ↔ t = x ∧ inQuad g p q = true := by
    intro p x
    split <;> simp_all
  rw [e1, e1]
  have e2 : (∃ i, i < 4 ∧ edgeLam g (q (node i)) (q (node (i + 1))) a b = some t) ↔
      ∃ i, edgeLam g (q i) (q (i + 1)) a b = some t := by
    constructor
    · rintro ⟨i, _, h⟩; exact ⟨node i, by rw [node_succ] at h; exact h⟩
    · rintro ⟨i, h⟩; exact ⟨i, i.2, by rw [node_succ, node_cast]; exact h⟩
  rw [e2]

theorem inQuad_near (hf : SolvesLine rnd g u β Δ) (hq : ConvexQuad (valQuad q)) (hsize : ∀ i j, dist (valQuad q i) (valQuad q j) ≤ L) {σ : ℝ}
    (hσ : σ = 1 ∨ σ = -1) (hr : ∀ x, x ∈ quadRegion (valQuad q) ↔ ∀ i, 0 ≤ σ * area2 (valQuad q i) (valQuad q (i + 1)) x)
    {p : Pt (Fl rnd)} (h : inQuad g p q = true) (i : Fin 4) :
    -(8 * lineTol * L ^ 2) ≤ σ * area2 (valQuad q i) (valQuad q (i + 1)) (valPt p) := by
  unfold inQuad at h
  rw [Bool.or_eq_true] at h
  rcases h with h | h
  · exact tri_near hf hsize hσ hr (ConvexQuad.proper hq).1 h i
  · exact tri_near hf hsize hσ hr (ConvexQuad.proper hq).2 h i

/-- Every parameter collected is near. -/
theorem collected_near (hf : SolvesLine rnd g u β Δ) (hl : FairLine Δ L (valQuad q) (valPt a) (valPt b)) {σ : ℝ}
    (hσ : σ = 1 ∨ σ = -1) (hr : ∀ x, x ∈ quadRegion (valQuad q) ↔ ∀ i, 0 ≤ σ * area2 (valQuad q i) (valQuad q (i + 1)) x)
    {x : Fl rnd} (h : x ∈ collectedL g q a b) :
    NearParam (8 * lineTol * L ^ 2) σ (valQuad q) (valPt a) (valPt b) x.val ∧ -(2 * lineTol) ≤ x.val ∧ x.val ≤ 1 + 2 * lineTol := by
  have hlt := lineTol_pos
  rcases mem_collectedL_fl.mp h with ⟨rfl, h2⟩ | ⟨i, h⟩ | ⟨rfl, h2⟩
  · refine ⟨fun i => ?_, by show _ ≤ (0 : ℝ); linarith, by show (0 : ℝ) ≤ _; linarith⟩
    have : valPt a + (0 : Fl rnd).val • (valPt b - valPt a) = valPt a := by show _ + (0 : ℝ) • _ = _; simp
    rw [this]
    exact inQuad_near hf hl.convex hl.size hσ hr h2 i
  · exact edge_near hf hl.size hl.length hl.proper hσ hr h
  · refine ⟨fun i => ?_, by show _ ≤ (1 : ℝ); linarith, by show (1 : ℝ) ≤ _; linarith⟩
    have : valPt a + (1 : Fl rnd).val • (valPt b - valPt a) = valPt b := by show _ + (1 : ℝ) • _ = _; simp
    rw [this]
    exact inQuad_near hf hl.convex hl.size hσ hr h2 i

/-! ### What is inside is found -/

/-- A point of a triangle that is not flat is accepted. -/
theorem tri_found (hf : SolvesLine rnd g u β Δ) (hL : 0 < L) {p n0 n1 n2 : Pt (Fl rnd)} (h1 : dist (valPt n0) (valPt n1) ≤ L)
    (h2 : dist (valPt n0) (valPt n2) ≤ L) (hdet : Δ * L ^ 2 ≤ |area2 (valPt n0) (valPt n1) (valPt n2)|)
    (hp : valPt p ∈ tri (valPt n0) (valPt n1) (valPt n2)) : inTriL g p n0 n1 n2 = true := by
  obtain ⟨t1, t2⟩ := ltol_near hf
  have hlt := lineTol_pos
  have hl1 : lineTol ≤ 1 / 1000 := by rw [lineTol_val]; norm_num
  have hu2 : u ≤ lineTol / 200 := hf.unit.trans (by rw [lineTol_val]; norm_num)
  obtain ⟨w0, v, w, hu, hv, hw, hs, hpe⟩ := tri_bary hp
  obtain rfl : w0 = 1 - v - w := by linarith
  have d1 := abs_sub_le_dist (valPt n0) (valPt n1)
  have d2 := abs_sub_le_dist (valPt n0) (valPt n2)
  have hx : (valPt p).1 = (1 - v - w) * (valPt n0).1 + v * (valPt n1).1 + w * (valPt n2).1 := by rw [hpe]; rfl
  have hy : (valPt p).2 = (1 - v - w) * (valPt n0).2 + v * (valPt n1).2 + w * (valPt n2).2 := by rw [hpe]; rfl
  obtain ⟨hi, s0, s1⟩ := solved hf.solves (a := triMat n0 n1 n2) (b := triRhs p n0) (A := triMat (valPt n0) (valPt n1) (valPt n2))
    (B := triRhs (valPt p) (valPt n0)) (S := L) (y0 := v) (y1 := w) (M := 1) (fun k _ => triMat_val _ _ _ k)
    (fun k _ => triRhs_val _ _ k) (by
      intro k hk
      interval_cases k
      · exact d1.1.trans h1
      · exact d2.1.trans h2
      · exact d1.2.trans h1
      · exact d2.2.trans h2) hL (by
      refine hdet.trans (le_of_eq ?_)
      congr 1; simp only [triMat, area2]; ring)
    (by simp only [triMat, triRhs]; rw [hx]; ring) (by simp only [triMat, triRhs]; rw [hy]; ring)
    (by rw [abs_of_nonneg hv]; linarith) (by rw [abs_of_nonneg hw]; linarith)
  unfold inTriL
  simp only [hi, lt_irrefl, if_false, Bool.and_eq_true, decide_eq_true_eq]
  have hsm := hf.small
  rw [mul_one] at s0 s1
  set x0 := entry (g (args2 (triMat n0 n1 n2) (triRhs p n0))).b 0 with hx0
  set x1 := entry (g (args2 (triMat n0 n1 n2) (triRhs p n0))).b 1 with hx1
  rw [abs_le] at t1 t2 s0 s1
  refine ⟨⟨⟨?_, ?_⟩, ?_⟩, ?_⟩
  · show -(ltol : Fl rnd).val < x0; linarith [t1.1, t1.2, s0.1, s0.2]
  · show x0 ≤ ((1 : Fl rnd) + ltol).val; linarith [t2.1, t2.2, s0.1, s0.2]
  · show -(ltol : Fl rnd).val < x1; linarith [t1.1, t1.2, s1.1, s1.2]
  · show rnd (x0 + x1) ≤ ((1 : Fl rnd) + ltol).val
    have h5 := (abs_le.mp (rnd_near hf.solves.rounds (x0 + x1))).2
    have hb : |x0 + x1| ≤ 11 / 10 := by rw [abs_le]; constructor <;> linarith [s0.1, s0.2, s1.1, s1.2]
    have : u * |x0 + x1| ≤ lineTol / 200 * (11 / 10) := mul_le_mul hu2 hb (abs_nonneg _) (by linarith)
    linarith [t2.1, t2.2, s0.1, s0.2, s1.1, s1.2]

theorem inQuad_found (hf : SolvesLine rnd g u β Δ) (hl : FairLine Δ L (valQuad q) (valPt a) (valPt b)) {p : Pt (Fl rnd)}
    (hp : valPt p ∈ quadRegion (valQuad q)) : inQuad g p q = true := by
  have hL := L_pos hl
  unfold inQuad
  rw [Bool.or_eq_true]
  rcases (region_tris hl.convex (valPt p)).mp hp with ⟨h1, h⟩ | ⟨h1, h⟩
  · left
    refine tri_found hf hL (hl.size 0 1) (hl.size 0 3) ?_ h
    exact hl.shaped.1.resolve_left (by rw [← cross_area2]; exact h1)
  · right
    refine tri_found hf hL (hl.size 2 3) (hl.size 2 1) ?_ h
    exact hl.shaped.2.resolve_left (by rw [← cross_area2]; exact h1)

/-- A crossing at a fair angle is found. -/
theorem edge_found (hf : SolvesLine rnd g u β Δ) (hL : 0 < L) {e0 e1 : Pt (Fl rnd)} (h1 : dist (valPt e0) (valPt e1) ≤ L)
    (h2 : dist (valPt a) (valPt b) ≤ L) (hdet : Δ * L ^ 2 ≤ |turn (valPt e0) (valPt e1) (valPt a) (valPt b)|) {t : ℝ} (t0 : 0 ≤ t)
    (tl : t ≤ 1) (hp : valPt a + t • (valPt b - valPt a) ∈ segment ℝ (valPt e0) (valPt e1)) :
    ∃ x, edgeLam g e0 e1 a b = some x ∧ |x.val - t| ≤ 2 / 5 * lineTol := by
  obtain ⟨t1, t2⟩ := ltol_near hf
  have hlt := lineTol_pos
  obtain ⟨s, sz, so, heq⟩ := mem_segment_iff.mp hp
  have hx := congrArg Prod.fst heq
  have hy := congrArg Prod.snd heq
  simp only [Prod.fst_add, Prod.smul_fst, Prod.fst_sub, Prod.snd_add, Prod.smul_snd, Prod.snd_sub, smul_eq_mul] at hx hy
  obtain ⟨hi, s0, s1⟩ := solved hf.solves (a := edgeMat e0 e1 a b) (b := triRhs a e0)
    (A := edgeMat (valPt e0) (valPt e1) (valPt a) (valPt b))
    (B := triRhs (valPt a) (valPt e0)) (S := L) (y0 := s) (y1 := t) (M := 1) (fun k _ => edgeMat_val _ _ _ _ k)
    (fun k _ => triRhs_val _ _ k) (fun k hk => (edge_bound _ _ _ _ k hk).trans (max_le h1 h2)) hL (by
      refine hdet.trans (le_of_eq ?_)
      rw [← abs_neg]
      congr 1; simp only [edgeMat, turn]; ring)
    (by simp only [edgeMat, triRhs]; linear_combination -hx) (by simp only [edgeMat, triRhs]; linear_combination -hy)
    (by rw [abs_of_nonneg sz]; exact so) (by rw [abs_of_nonneg t0]; exact tl)
  have hsm := hf.small
  rw [mul_one] at s0 s1
  refine ⟨(g (args2 (edgeMat e0 e1 a b) (triRhs a e0))).b.getD 1 0, ?_, s1.trans hsm⟩
  unfold edgeLam
  simp only [hi, lt_irrefl, if_false]
  set x0 := entry (g (args2 (edgeMat e0 e1 a b) (triRhs a e0))).b 0 with hx0
  set x1 := entry (g (args2 (edgeMat e0 e1 a b) (triRhs a e0))).b 1 with hx1
  rw [abs_le] at t1 t2 s0 s1
  rw [if_pos]
  refine ⟨?_, ?_, ?_, ?_⟩
  · show -(ltol : Fl rnd).val ≤ x0; linarith [t1.1, t1.2, s0.1, s0.2]
  · show x0 < ((1 : Fl rnd) + ltol).val; linarith [t2.1, t2.2, s0.1, s0.2]
  · show -(ltol : Fl rnd).val ≤ x1; linarith [t1.1, t1.2, s1.1, s1.2]
  · show x1 < ((1 : Fl rnd) + ltol).val; linarith [t2.1, t2.2, s1.1, s1.2]

/-- The first and the last parameter inside are found. -/
theorem ends_found (hf : SolvesLine rnd g u β Δ) (hl : FairLine Δ L (valQuad q) (valPt a) (valPt b)) {t : ℝ}
    (ht : IsLeast (insideParams (valQuad q) (valPt a) (valPt b)) t ∨ IsGreatest (insideParams (valQuad q) (valPt a) (valPt b)) t) :
    ∃ x ∈ collectedL g q a b, |x.val - t| ≤ 2 / 5 * lineTol := by
  have hL := L_pos hl
  have hlt := lineTol_pos
  have hmem : t ∈ insideParams (valQuad q) (valPt a) (valPt b) := ht.elim (fun h => h.1) fun h => h.1
  have hcase : (t = 0 ∨ t = 1) ∨ ∃ i, valPt a + t • (valPt b - valPt a) ∈ segment ℝ (valQuad q i) (valQuad q (i + 1)) ∧
      turn (valQuad q i) (valQuad q (i + 1)) (valPt a) (valPt b) ≠ 0 := by
    rcases ht with h | h
    · rcases least_edge hl.convex h with h | ⟨i, hi, hk⟩
      · exact Or.inl (Or.inl h)
      · exact Or.inr ⟨i, hi, hk⟩
    · rcases greatest_edge hl.convex h with h | ⟨i, hi, hk⟩
      · exact Or.inl (Or.inr h)
      · exact Or.inr ⟨i, hi, hk⟩
  have hends : t = 0 ∨ t = 1 → ∃ x ∈ collectedL g q a b, |x.val - t| ≤ 2 / 5 * lineTol := by
    rintro (rfl | rfl)
    · refine ⟨0, mem_collectedL_fl.mpr (Or.inl ⟨rfl, ?_⟩), by show |(0 : ℝ) - 0| ≤ _; simp; positivity⟩
      refine inQuad_found hf hl ?_
      have := hmem.2.2
      simpa using this
    · refine ⟨1, mem_collectedL_fl.mpr (Or.inr (Or.inr ⟨rfl, ?_⟩)), by show |(1 : ℝ) - 1| ≤ _; simp; positivity⟩
      refine inQuad_found hf hl ?_
      have := hmem.2.2
      simpa using this
  rcases hcase with h | ⟨i, hi, hk⟩
  · exact hends h
  obtain ⟨σ, hσ, hr⟩ := signed_region hl.convex
  have hσ0 : σ ≠ 0 := by rcases hσ with rfl | rfl <;> norm_num
  have hσa : ∀ x : ℝ, |σ * x| = |x| := by rcases hσ with rfl | rfl <;> simp
  have hz : area2 (valQuad q i) (valQuad q (i + 1)) (valPt a + t • (valPt b - valPt a)) = 0 := by
    obtain ⟨s, -, -, e⟩ := mem_segment_iff.mp hi
    rw [e]
    simp only [area2, Prod.fst_add, Prod.snd_add, Prod.smul_fst, Prod.smul_snd, Prod.fst_sub, Prod.snd_sub, smul_eq_mul]
    ring
  rw [area2_line] at hz
  have hB := area2_end (valQuad q i) (valQuad q (i + 1)) (valPt a) (valPt b)
  have t0 := hmem.1
  have tl := hmem.2.1
  rcases edge_cases hl hσ hr i with h | ⟨h, h'⟩ | ⟨h, h'⟩
  · rw [hσa] at h
    obtain ⟨x, hx, hd⟩ := edge_found (a := a) (b := b) hf hL (hl.size i (i + 1)) hl.length h t0 tl hi
    exact ⟨x, mem_collectedL_fl.mpr (Or.inr (Or.inl ⟨i, hx⟩)), hd⟩
  · refine hends ?_
    by_contra hcon
    push Not at hcon
    have l0 := lt_of_le_of_ne t0 (Ne.symm hcon.1)
    have l1 := lt_of_le_of_ne tl hcon.2
    rw [hB] at h'
    set A := area2 (valQuad q i) (valQuad q (i + 1)) (valPt a)
    set k := turn (valQuad q i) (valQuad q (i + 1)) (valPt a) (valPt b)
    have e : (1 - t) * (σ * A) + t * (σ * (A + k)) = 0 := by linear_combination σ * hz
    have z1 : σ * A = 0 := by nlinarith [mul_nonneg (sub_nonneg.mpr tl) h, mul_nonneg t0 h']
    have z2 : A = 0 := (mul_eq_zero.mp z1).resolve_left hσ0
    rw [z2, zero_add] at hz
    rcases mul_eq_zero.mp hz with h | h
    · exact l0.ne' h
    · exact hk h
  · exfalso
    rw [hB] at h'
    set A := area2 (valQuad q i) (valQuad q (i + 1)) (valPt a)
    set k := turn (valQuad q i) (valQuad q (i + 1)) (valPt a) (valPt b)
    have e : (1 - t) * (σ * A) + t * (σ * (A + k)) = 0 := by linear_combination σ * hz
    have p1 := mul_le_mul_of_nonneg_left h.le (sub_nonneg.mpr tl)
    have p2 := mul_le_mul_of_nonneg_left h'.le t0
    have : 0 < 12 * lineTol * L ^ 2 := by positivity
    nlinarith

end near

end Sg.QuadLine
