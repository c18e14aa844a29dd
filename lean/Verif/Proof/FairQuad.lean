import Verif.Proof.ConvexSearch
import Verif.Proof.FlowTrap
import Mathlib.Topology.Order.IntermediateValue
import Mathlib.Topology.Algebra.Ring.Real
/-
Fair quadrilaterals: what the search needs, and the index position of every point.
-/
namespace Sg.Fair
open Sg Sg.LinearSolve Sg.Triangulate Sg.QuadIntersect Sg.FindPoint Sg.QuadFlows Sg.Spec Sg.Props Sg.Curved Sg.FlowInterp Sg.Plane Sg.Trap

section
variable {q : Quad ℝ}

theorem dl_bilin (q : Quad ℝ) (x : Fin 2 → ℝ) : dl q x = bilin (fun i => area2 (q (i + 3)) (q (i + 3 + 1)) (q (i + 3 + 2))) x := by
  rw [dl_mean]; rfl

theorem bilin_lower {v : Fin 4 → ℝ} {lo : ℝ} (h : ∀ i, lo ≤ v i) {x : Fin 2 → ℝ} (hx : InCell x) : lo ≤ bilin v x := by
  have h0 := (hx 0).1
  have h1 := (hx 1).1
  have k0 : 0 ≤ 1 - x 0 := by linarith [(hx 0).2]
  have k1 : 0 ≤ 1 - x 1 := by linarith [(hx 1).2]
  have a := mul_nonneg (mul_nonneg k0 k1) (sub_nonneg.2 (h 0))
  have b := mul_nonneg (mul_nonneg h0 k1) (sub_nonneg.2 (h 1))
  have c := mul_nonneg (mul_nonneg h0 h1) (sub_nonneg.2 (h 2))
  have d := mul_nonneg (mul_nonneg k0 h1) (sub_nonneg.2 (h 3))
  unfold bilin
  linarith

theorem bilin_upper {v : Fin 4 → ℝ} {hi : ℝ} (h : ∀ i, v i ≤ hi) {x : Fin 2 → ℝ} (hx : InCell x) : bilin v x ≤ hi := by
  have := bilin_lower (v := fun i => -v i) (lo := -hi) (fun i => neg_le_neg (h i)) hx
  have e : bilin (fun i => -v i) x = -bilin v x := by unfold bilin; ring
  rw [e] at this
  linarith

/-- The turning direction. -/
theorem fair_sign (h : FairQuad q) : ∃ ς m : ℝ, (ς = 1 ∨ ς = -1) ∧ 0 < m ∧
    ∀ i, m ≤ ς * area2 (q i) (q (i + 1)) (q (i + 2)) ∧ ς * area2 (q i) (q (i + 1)) (q (i + 2)) ≤ 16 * m := by
  obtain ⟨j, hj⟩ := Finite.exists_min fun i : Fin 4 => |area2 (q i) (q (i + 1)) (q (i + 2))|
  obtain ⟨hs, i0, hi0⟩ := h.convex
  have hm : 0 < |area2 (q j) (q (j + 1)) (q (j + 2))| := by
    have h1 := h.areas i0 j
    have := abs_pos.2 hi0
    linarith
  rcases hs with hs | hs
  · refine ⟨1, _, .inl rfl, hm, fun i => ?_⟩
    rw [one_mul]
    have h1 := hj i
    have h2 := h.areas i j
    rw [abs_of_nonneg (hs i)] at h1 h2
    exact ⟨h1, h2⟩
  · refine ⟨-1, _, .inr rfl, hm, fun i => ?_⟩
    have h1 := hj i
    have h2 := h.areas i j
    rw [abs_of_nonpos (hs i)] at h1 h2
    rw [neg_one_mul]
    exact ⟨h1, h2⟩

theorem fair_range (h : FairQuad q) : ∃ ς m : ℝ, |ς| = 1 ∧ 0 < m ∧ (∀ x, InCell x → m ≤ ς * dl q x ∧ ς * dl q x ≤ 16 * m) ∧
    ∀ i, m ≤ ς * area2 (q i) (q (i + 1)) (q (i + 2)) := by
  obtain ⟨ς, m, hς, hm, hr⟩ := fair_sign h
  refine ⟨ς, m, by rcases hς with rfl | rfl <;> norm_num, hm, fun x hx => ?_, fun i => (hr i).1⟩
  have e : ς * dl q x = bilin (fun i => ς * area2 (q (i + 3)) (q (i + 3 + 1)) (q (i + 3 + 2))) x := by
    rw [dl_bilin]; unfold bilin; ring
  rw [e]
  exact ⟨bilin_lower (fun i => (hr _).1) hx, bilin_upper (fun i => (hr _).2) hx⟩

/-- Upper bounds of the lengths of the two directions. -/
noncomputable def lenU (q : Quad ℝ) (t : Fin 2 → ℝ) : ℝ := (1 - t 1) * apart (q 0) (q 1) + t 1 * apart (q 2) (q 3)
noncomputable def lenV (q : Quad ℝ) (t : Fin 2 → ℝ) : ℝ := (1 - t 0) * apart (q 3) (q 0) + t 0 * apart (q 1) (q 2)

theorem nrm_U {t : Fin 2 → ℝ} (ht : InCell t) : nrm (Uq q t) ≤ lenU q t := by
  have e : Uq q t = (1 - t 1) • (-1 : ℝ) • (q 0 - q 1) + t 1 • (q 2 - q 3) := by unfold Uq wv; module
  rw [e]
  refine (nrm_add _ _).trans (le_of_eq ?_)
  rw [nrm_smul, nrm_smul, nrm_smul, abs_of_nonneg (show 0 ≤ 1 - t 1 by linarith [(ht 1).2]), abs_of_nonneg (ht 1).1, lenU, apart_nrm, apart_nrm]
  norm_num

theorem nrm_V {t : Fin 2 → ℝ} (ht : InCell t) : nrm (Vq q t) ≤ lenV q t := by
  have e : Vq q t = (1 - t 0) • (q 3 - q 0) + t 0 • (-1 : ℝ) • (q 1 - q 2) := by unfold Vq wv; module
  rw [e]
  refine (nrm_add _ _).trans (le_of_eq ?_)
  rw [nrm_smul, nrm_smul, nrm_smul, abs_of_nonneg (show 0 ≤ 1 - t 0 by linarith [(ht 0).2]), abs_of_nonneg (ht 0).1, lenV, apart_nrm, apart_nrm]
  norm_num

theorem fair_wide (h : FairQuad q) {t : Fin 2 → ℝ} (ht : InCell t) : lenU q t * lenV q t ≤ 2 * |dl q t| := by
  obtain ⟨ς, m, hςa, hm, rng, hr⟩ := fair_range h
  have h0 := (ht 0).1
  have h1 := (ht 1).1
  have k0 : 0 ≤ 1 - t 0 := by linarith [(ht 0).2]
  have k1 : 0 ≤ 1 - t 1 := by linarith [(ht 1).2]
  have e : |dl q t| = ς * dl q t := by
    have := (rng t ht).1
    rw [← one_mul |dl q t|, ← hςa, ← abs_mul, abs_of_pos (by linarith)]
  have ea : ∀ i, |area2 (q i) (q (i + 1)) (q (i + 2))| = ς * area2 (q i) (q (i + 1)) (q (i + 2)) := by
    intro i
    have := hr i
    rw [← one_mul |area2 _ _ _|, ← hςa, ← abs_mul, abs_of_pos (by linarith)]
  have g0 : apart (q 0) (q 1) * apart (q 1) (q 2) ≤ 2 * |area2 (q 0) (q 1) (q 2)| := h.angles 0
  have g1 : apart (q 1) (q 2) * apart (q 2) (q 3) ≤ 2 * |area2 (q 1) (q 2) (q 3)| := h.angles 1
  have g2 : apart (q 2) (q 3) * apart (q 3) (q 0) ≤ 2 * |area2 (q 2) (q 3) (q 0)| := h.angles 2
  have g3 : apart (q 3) (q 0) * apart (q 0) (q 1) ≤ 2 * |area2 (q 3) (q 0) (q 1)| := h.angles 3
  rw [show |area2 (q 0) (q 1) (q 2)| = ς * area2 (q 0) (q 1) (q 2) from ea 0] at g0
  rw [show |area2 (q 1) (q 2) (q 3)| = ς * area2 (q 1) (q 2) (q 3) from ea 1] at g1
  rw [show |area2 (q 2) (q 3) (q 0)| = ς * area2 (q 2) (q 3) (q 0) from ea 2] at g2
  rw [show |area2 (q 3) (q 0) (q 1)| = ς * area2 (q 3) (q 0) (q 1) from ea 3] at g3
  unfold lenU lenV
  rw [e, dl_mean]
  have a := mul_nonneg (mul_nonneg k0 k1) (sub_nonneg.2 g3)
  have b := mul_nonneg (mul_nonneg h0 k1) (sub_nonneg.2 g0)
  have c := mul_nonneg (mul_nonneg h0 h1) (sub_nonneg.2 g1)
  have d := mul_nonneg (mul_nonneg k0 h1) (sub_nonneg.2 g2)
  linarith

theorem fair_mild (h : FairQuad q) : Mild q := by
  obtain ⟨ς, m, hςa, hm, rng, hr⟩ := fair_range h
  have ne : ∀ t, InCell t → dl q t ≠ 0 := by
    intro t ht hz
    have := (rng t ht).1
    rw [hz, mul_zero] at this
    linarith
  have hς0 : ς ≠ 0 := by rintro rfl; simp at hςa
  refine ⟨ne, ?_, ?_, ?_⟩
  · intro x t hx ht
    obtain ⟨x1, x2⟩ := rng x hx
    obtain ⟨t1, t2⟩ := rng t ht
    have e : dl q x / dl q t = (ς * dl q x) / (ς * dl q t) := by rw [mul_div_mul_left _ _ hς0]
    have hp : 0 < ς * dl q t := by linarith
    rw [e, le_div_iff₀ hp, div_le_iff₀ hp]
    constructor <;> linarith
  · intro t ht
    exact (mul_le_mul (nrm_U ht) (nrm_V ht) (nrm_nonneg _) ((nrm_nonneg _).trans (nrm_U ht))).trans (fair_wide h ht)
  · intro t ht
    have s0 : apart (q 0) (q 1) ≤ 100 := h.sides 0
    have s1 : apart (q 1) (q 2) ≤ 100 := h.sides 1
    have s2 : apart (q 2) (q 3) ≤ 100 := h.sides 2
    have s3 : apart (q 3) (q 0) ≤ 100 := h.sides 3
    have h0 := (ht 0).1
    have h1 := (ht 1).1
    have k0 : 0 ≤ 1 - t 0 := by linarith [(ht 0).2]
    have k1 : 0 ≤ 1 - t 1 := by linarith [(ht 1).2]
    constructor
    · refine (nrm_U ht).trans ?_
      unfold lenU
      nlinarith
    · refine (nrm_V ht).trans ?_
      unfold lenV
      nlinarith

theorem half_plane {d o : P2} (h : ∀ i, 0 ≤ cr d (q i - o)) {p : P2} (hp : p ∈ quadRegion q) : 0 ≤ cr d (p - o) := by
  have hc : Convex ℝ {p : P2 | 0 ≤ cr d (p - o)} := by
    rintro a ha b hb u v hu hv huv
    have e : cr d (u • a + v • b - o) = u * cr d (a - o) + v * cr d (b - o) := by
      obtain rfl : u = 1 - v := by linarith
      simp only [cr, Prod.fst_sub, Prod.snd_sub, Prod.fst_add, Prod.snd_add, Prod.smul_fst, Prod.smul_snd, smul_eq_mul]; ring
    rw [Set.mem_setOf_eq, e]
    exact add_nonneg (mul_nonneg hu ha) (mul_nonneg hv hb)
  exact convexHull_min (𝕜 := ℝ) (s := Set.range q) (by rintro _ ⟨i, rfl⟩; exact h i) hc hp

/-- Every point of the quadrilateral has an index position. -/
theorem fair_region (h : FairQuad q) {p : P2} (hp : p ∈ quadRegion q) : ∃ x, InCell x ∧ p = at_ q x := by
  have hmild := fair_mild h
  obtain ⟨ς, m, hς, hm, hr⟩ := fair_sign h
  have r0 : 0 ≤ ς * area2 (q 0) (q 1) (q 2) := hm.le.trans (hr 0).1
  have r1 : 0 ≤ ς * area2 (q 1) (q 2) (q 3) := hm.le.trans (hr 1).1
  have r2 : 0 ≤ ς * area2 (q 2) (q 3) (q 0) := hm.le.trans (hr 2).1
  have r3 : 0 ≤ ς * area2 (q 3) (q 0) (q 1) := hm.le.trans (hr 3).1
  have rng : ∀ x, InCell x → 0 < ς * dl q x := by
    intro x hx
    have e : ς * dl q x = bilin (fun i => ς * area2 (q (i + 3)) (q (i + 3 + 1)) (q (i + 3 + 2))) x := by
      rw [dl_bilin]; unfold bilin; ring
    rw [e]
    exact hm.trans_le (bilin_lower (fun i => (hr _).1) hx)
  have four : ∀ {P : Fin 4 → Prop}, P 0 → P 1 → P 2 → P 3 → ∀ i, P i := by
    intro P a b c d i; fin_cases i <;> assumption
  have side0 : 0 ≤ cr (ς • (q 0 - q 3)) (p - q 3) := by
    refine half_plane (four ?_ ?_ ?_ ?_) hp <;>
      simp only [cr, area2, Prod.fst_sub, Prod.snd_sub, Prod.smul_fst, Prod.smul_snd, smul_eq_mul] at * <;> linarith
  have side1 : 0 ≤ cr (ς • (q 2 - q 1)) (p - q 1) := by
    refine half_plane (four ?_ ?_ ?_ ?_) hp <;>
      simp only [cr, area2, Prod.fst_sub, Prod.snd_sub, Prod.smul_fst, Prod.smul_snd, smul_eq_mul] at * <;> linarith
  have side2 : 0 ≤ cr (ς • (q 1 - q 0)) (p - q 0) := by
    refine half_plane (four ?_ ?_ ?_ ?_) hp <;>
      simp only [cr, area2, Prod.fst_sub, Prod.snd_sub, Prod.smul_fst, Prod.smul_snd, smul_eq_mul] at * <;> linarith
  have side3 : 0 ≤ cr (ς • (q 3 - q 2)) (p - q 3) := by
    refine half_plane (four ?_ ?_ ?_ ?_) hp <;>
      simp only [cr, area2, Prod.fst_sub, Prod.snd_sub, Prod.smul_fst, Prod.smul_snd, smul_eq_mul] at * <;> linarith
  set G : ℝ → ℝ := fun l => ς * cr ((q 3 - q 0) + l • wv q) (p - q 0 - l • (q 1 - q 0)) with hG
  have hcont : Continuous G := by
    rw [hG]
    simp only [cr, Prod.fst_sub, Prod.snd_sub, Prod.fst_add, Prod.snd_add, Prod.smul_fst, Prod.smul_snd, smul_eq_mul]
    fun_prop
  have g0 : G 0 ≤ 0 := by
    rw [hG]
    simp only [cr, wv, Prod.fst_sub, Prod.snd_sub, Prod.fst_add, Prod.snd_add, Prod.smul_fst, Prod.smul_snd, smul_eq_mul] at *
    linarith
  have g1 : 0 ≤ G 1 := by
    rw [hG]
    simp only [cr, wv, Prod.fst_sub, Prod.snd_sub, Prod.fst_add, Prod.snd_add, Prod.smul_fst, Prod.smul_snd, smul_eq_mul] at *
    linarith
  obtain ⟨l, ⟨l0, l1⟩, hl⟩ := intermediate_value_Icc (zero_le_one' ℝ) hcont.continuousOn ⟨g0, g1⟩
  have hς0 : ς ≠ 0 := by rcases hς with rfl | rfl <;> norm_num
  set V := (q 3 - q 0) + l • wv q with hV
  set r := p - q 0 - l • (q 1 - q 0) with hrd
  have hcr : cr V r = 0 := by
    have : ς * cr V r = 0 := hl
    rcases mul_eq_zero.1 this with h | h
    · exact absurd h hς0
    · exact h
  have hVn : V.1 ^ 2 + V.2 ^ 2 ≠ 0 := by
    intro hz
    have z1 : V.1 = 0 := by nlinarith [sq_nonneg V.1, sq_nonneg V.2]
    have z2 : V.2 = 0 := by nlinarith [sq_nonneg V.1, sq_nonneg V.2]
    refine hmild.ne (fun k => if k = 0 then l else 0) (fun k => by fin_cases k <;> simp [l0, l1]) ?_
    have : Vq q (fun k => if k = 0 then l else 0) = V := by simp [Vq, hV]
    unfold dl cr
    rw [this, z1, z2]; ring
  set μ := (r.1 * V.1 + r.2 * V.2) / (V.1 ^ 2 + V.2 ^ 2) with hμ
  have hrV : r = μ • V := by
    unfold cr at hcr
    ext <;> simp only [Prod.smul_fst, Prod.smul_snd, smul_eq_mul] <;> rw [hμ, div_mul_eq_mul_div, eq_div_iff hVn]
    · linear_combination -V.2 * hcr
    · linear_combination V.1 * hcr
  have hp' : p = q 0 + l • (q 1 - q 0) + μ • V := by
    rw [← hrV, hrd]; module
  have b0 : ς * dl q (fun k => if k = 0 then l else 0) * μ = cr (ς • (q 1 - q 0)) (p - q 0) := by
    rw [hp', hV]
    simp [dl, cr, Uq, Vq]
    ring
  have b1 : ς * dl q (fun k => if k = 0 then l else 1) * (1 - μ) = cr (ς • (q 3 - q 2)) (p - q 3) := by
    rw [hp', hV]
    simp [dl, cr, Uq, Vq, wv]
    ring
  have μ0 : 0 ≤ μ := by
    have := rng (fun k => if k = 0 then l else 0) (fun k => by fin_cases k <;> simp [l0, l1])
    rw [← b0] at side2
    by_contra hneg
    nlinarith
  have μ1 : 0 ≤ 1 - μ := by
    have := rng (fun k => if k = 0 then l else 1) (fun k => by fin_cases k <;> simp [l0, l1])
    rw [← b1] at side3
    by_contra hneg
    nlinarith
  refine ⟨fun k => if k = 0 then l else μ, fun k => ?_, ?_⟩
  · fin_cases k
    · exact ⟨l0, l1⟩
    · exact ⟨μ0, by simpa using μ1⟩
  · rw [at_eq, hp', hV]
    simp
    module

/-- Near places have near positions. -/
theorem fair_near (h : FairQuad q) {l : ℝ} (hl : 0 < l) (hs : ∀ i, l ≤ apart (q i) (q (i + 1))) {x t : Fin 2 → ℝ} (hx : InCell x) (ht : InCell t)
    (k : Fin 2) : |x k - t k| ≤ 64 / l * apart (at_ q x) (at_ q t) := by
  have hm := fair_mild h
  obtain ⟨hU, hV, f1, f2⟩ := residual_parts hm ht hx
  obtain ⟨⟨a1, -⟩, ⟨b1, -⟩, -⟩ := fa_range hm ht hx
  have hw := fair_wide h ht
  have hd : |dl q t| ≤ nrm (Uq q t) * nrm (Vq q t) := cr_le _ _
  have uU := nrm_U (q := q) ht
  have uV := nrm_V (q := q) ht
  have s0 : l ≤ apart (q 0) (q 1) := hs 0
  have s1 : l ≤ apart (q 1) (q 2) := hs 1
  have s2 : l ≤ apart (q 2) (q 3) := hs 2
  have s3 : l ≤ apart (q 3) (q 0) := hs 3
  have h0 := (ht 0).1
  have h1 := (ht 1).1
  have k0 : 0 ≤ 1 - t 0 := by linarith [(ht 0).2]
  have k1 : 0 ≤ 1 - t 1 := by linarith [(ht 1).2]
  have lU : l ≤ lenU q t := by unfold lenU; nlinarith
  have lV : l ≤ lenV q t := by unfold lenV; nlinarith
  have bU : l / 2 ≤ nrm (Uq q t) := by
    have : l / 2 * nrm (Vq q t) ≤ nrm (Uq q t) * nrm (Vq q t) := by nlinarith
    exact le_of_mul_le_mul_right this hV
  have bV : l / 2 ≤ nrm (Vq q t) := by
    have : l / 2 * nrm (Uq q t) ≤ nrm (Vq q t) * nrm (Uq q t) := by nlinarith
    exact le_of_mul_le_mul_right this hU
  have fin : ∀ e c n : ℝ, 0 ≤ e → 1 / 16 ≤ c → l / 2 ≤ n → e * c * n ≤ 2 * nrm (at_ q x - at_ q t) → e ≤ 64 / l * apart (at_ q x) (at_ q t) := by
    intro e c n he hc hn hle
    rw [apart_nrm, div_mul_eq_mul_div, le_div_iff₀ hl]
    have : e * (1 / 16) * (l / 2) ≤ e * c * n := by gcongr
    linarith
  fin_cases k
  · exact fin _ _ _ (abs_nonneg _) b1 bU f1
  · exact fin _ _ _ (abs_nonneg _) a1 bV f2

theorem fair_locates (h : FairQuad q) : Locates q :=
  ⟨h.convex, fun _ hp => fair_region h hp, fun _ hg _ hf _ ht => (fair_mild h).search hg hf ht⟩

end
end Sg.Fair
