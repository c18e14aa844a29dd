import Verif.Proof.QuadGeom
import Verif.Proof.ConserveSums
import Mathlib.Analysis.SpecialFunctions.Trigonometric.Basic
import Mathlib.Analysis.SpecialFunctions.Complex.Arg
import Mathlib.RingTheory.RootsOfUnity.Complex
import Mathlib.Analysis.Convex.Combination
/-
Sectors of a disc cut by rings: the cells of a polar grid.
-/
namespace Sg.Polar
open Sg Sg.Triangulate Sg.Spec Sg.Plane Sg.Conserve MeasureTheory Real

/-- The point of the unit circle at an angle. -/
noncomputable def dir (α : ℝ) : P2 := (cos α, sin α)

/-- The part of the sector between the angles `α` and `α + δ` between two chords. -/
def wedge (α δ lo hi : ℝ) : Set P2 :=
  {p | ∃ s t : ℝ, 0 ≤ s ∧ 0 ≤ t ∧ lo ≤ s + t ∧ s + t ≤ hi ∧ p = s • dir α + t • dir (α + δ)}

/-- The corners of the wedge, in order. -/
noncomputable def wedgeQuad (α δ lo hi : ℝ) : Fin 4 → P2
  | 0 => lo • dir α
  | 1 => hi • dir α
  | 2 => hi • dir (α + δ)
  | 3 => lo • dir (α + δ)

theorem convex_wedge (α δ lo hi : ℝ) : Convex ℝ (wedge α δ lo hi) := by
  rintro _ ⟨s, t, hs, ht, h1, h2, rfl⟩ _ ⟨s', t', hs', ht', h1', h2', rfl⟩ u v hu hv huv
  refine ⟨u * s + v * s', u * t + v * t', by positivity, by positivity, ?_, ?_, ?_⟩
  · obtain rfl : v = 1 - u := by linarith
    nlinarith
  · obtain rfl : v = 1 - u := by linarith
    nlinarith
  · ext <;> simp <;> ring

theorem region_wedge {α δ lo hi : ℝ} (h0 : 0 ≤ lo) (h1 : lo < hi) : quadRegion (wedgeQuad α δ lo hi) = wedge α δ lo hi := by
  apply Set.Subset.antisymm
  · refine convexHull_min ?_ (convex_wedge α δ lo hi)
    rintro _ ⟨i, rfl⟩
    fin_cases i
    · exact ⟨lo, 0, h0, le_rfl, by linarith, by linarith, by simp [wedgeQuad]⟩
    · exact ⟨hi, 0, by linarith, le_rfl, by linarith, by linarith, by simp [wedgeQuad]⟩
    · exact ⟨0, hi, le_rfl, by linarith, by linarith, by linarith, by simp [wedgeQuad]⟩
    · exact ⟨0, lo, le_rfl, h0, by linarith, by linarith, by simp [wedgeQuad]⟩
  · rintro _ ⟨s, t, hs, ht, hl, hh, rfl⟩
    have hc := convex_convexHull ℝ (Set.range (wedgeQuad α δ lo hi))
    -- the position between the chords and along the chord
    obtain ⟨l, l0, l1, hm⟩ : ∃ l : ℝ, 0 ≤ l ∧ l ≤ 1 ∧ s + t = (1 - l) * lo + l * hi := by
      refine ⟨(s + t - lo) / (hi - lo), div_nonneg (by linarith) (by linarith), ?_, ?_⟩
      · rw [div_le_one (by linarith)]; linarith
      · have : hi - lo ≠ 0 := by linarith
        field_simp
        ring
    obtain ⟨m, m0, m1, es, et⟩ : ∃ m : ℝ, 0 ≤ m ∧ m ≤ 1 ∧ s = (s + t) * (1 - m) ∧ t = (s + t) * m := by
      rcases (add_nonneg hs ht).lt_or_eq with hp | hz
      · refine ⟨t / (s + t), by positivity, ?_, ?_, ?_⟩
        · rw [div_le_one hp]; linarith
        · field_simp; ring
        · field_simp
      · refine ⟨0, le_rfl, zero_le_one, ?_, ?_⟩ <;> linarith
    have a0 : (1 - l) • wedgeQuad α δ lo hi 0 + l • wedgeQuad α δ lo hi 1 ∈ quadRegion (wedgeQuad α δ lo hi) :=
      hc (mem_region _ 0) (mem_region _ 1) (by linarith) l0 (by ring)
    have a1 : (1 - l) • wedgeQuad α δ lo hi 3 + l • wedgeQuad α δ lo hi 2 ∈ quadRegion (wedgeQuad α δ lo hi) :=
      hc (mem_region _ 3) (mem_region _ 2) (by linarith) l0 (by ring)
    have := hc a0 a1 (a := 1 - m) (b := m) (by linarith) m0 (by ring)
    rw [hm] at es et
    have e : s • dir α + t • dir (α + δ) =
        (1 - m) • ((1 - l) • wedgeQuad α δ lo hi 0 + l • wedgeQuad α δ lo hi 1) +
          m • ((1 - l) • wedgeQuad α δ lo hi 3 + l • wedgeQuad α δ lo hi 2) := by
      rw [es, et]
      simp only [wedgeQuad]
      ext <;> simp <;> ring
    rw [e]
    exact this

theorem cross_dir (α β : ℝ) : cross (0 : P2) (dir α) (dir β) = sin (β - α) := by
  simp only [cross, dir, Prod.fst_zero, Prod.snd_zero, sub_zero]
  rw [sin_sub]; ring

theorem wedgeQuad_convex {α δ lo hi : ℝ} (hδ : 0 < sin δ) (h0 : 0 ≤ lo) (h1 : lo < hi) : ConvexQuad (wedgeQuad α δ lo hi) := by
  have hs : cos α * sin (α + δ) - sin α * cos (α + δ) = sin δ := by
    rw [show δ = (α + δ) - α by ring, sin_sub]; ring_nf
  have hD : 0 < hi - lo := by linarith
  have t0 : area2 (wedgeQuad α δ lo hi 0) (wedgeQuad α δ lo hi 1) (wedgeQuad α δ lo hi 2) = (hi - lo) * hi * sin δ := by
    simp only [wedgeQuad, area2, dir, Prod.smul_fst, Prod.smul_snd, smul_eq_mul]
    linear_combination (hi - lo) * hi * hs
  have t1 : area2 (wedgeQuad α δ lo hi 1) (wedgeQuad α δ lo hi 2) (wedgeQuad α δ lo hi 3) = (hi - lo) * hi * sin δ := by
    simp only [wedgeQuad, area2, dir, Prod.smul_fst, Prod.smul_snd, smul_eq_mul]
    linear_combination (hi - lo) * hi * hs
  have t2 : area2 (wedgeQuad α δ lo hi 2) (wedgeQuad α δ lo hi 3) (wedgeQuad α δ lo hi 0) = (hi - lo) * lo * sin δ := by
    simp only [wedgeQuad, area2, dir, Prod.smul_fst, Prod.smul_snd, smul_eq_mul]
    linear_combination (hi - lo) * lo * hs
  have t3 : area2 (wedgeQuad α δ lo hi 3) (wedgeQuad α δ lo hi 0) (wedgeQuad α δ lo hi 1) = (hi - lo) * lo * sin δ := by
    simp only [wedgeQuad, area2, dir, Prod.smul_fst, Prod.smul_snd, smul_eq_mul]
    linear_combination (hi - lo) * lo * hs
  refine ⟨.inl (fin4.mpr ⟨?_, ?_, ?_, ?_⟩), 0, ?_⟩
  · exact (mul_nonneg (mul_nonneg hD.le (by linarith)) hδ.le).trans_eq t0.symm
  · exact (mul_nonneg (mul_nonneg hD.le (by linarith)) hδ.le).trans_eq t1.symm
  · exact (mul_nonneg (mul_nonneg hD.le h0) hδ.le).trans_eq t2.symm
  · exact (mul_nonneg (mul_nonneg hD.le h0) hδ.le).trans_eq t3.symm
  · exact t0.trans_ne (mul_pos (mul_pos hD (by linarith)) hδ).ne'

/-! ### Coordinates in a sector -/

theorem cross_left (α δ s t : ℝ) : cross 0 (dir α) (s • dir α + t • dir (α + δ)) = t * sin δ := by
  have hs : cos α * sin (α + δ) - sin α * cos (α + δ) = sin δ := by
    rw [show δ = (α + δ) - α by ring, sin_sub]; ring_nf
  simp only [cross, dir, Prod.fst_zero, Prod.snd_zero, sub_zero, Prod.fst_add, Prod.snd_add, Prod.smul_fst, Prod.smul_snd,
    smul_eq_mul]
  linear_combination t * hs

theorem cross_right (α δ s t : ℝ) : cross (dir (α + δ)) 0 (s • dir α + t • dir (α + δ)) = s * sin δ := by
  have hs : cos α * sin (α + δ) - sin α * cos (α + δ) = sin δ := by
    rw [show δ = (α + δ) - α by ring, sin_sub]; ring_nf
  simp only [cross, dir, Prod.fst_zero, Prod.snd_zero, zero_sub, Prod.fst_add, Prod.snd_add, Prod.smul_fst, Prod.smul_snd,
    smul_eq_mul]
  linear_combination s * hs

theorem cross_chord (α δ r s t : ℝ) :
    cross (r • dir α) (r • dir (α + δ)) (s • dir α + t • dir (α + δ)) = r * (r - (s + t)) * sin δ := by
  have hs : cos α * sin (α + δ) - sin α * cos (α + δ) = sin δ := by
    rw [show δ = (α + δ) - α by ring, sin_sub]; ring_nf
  simp only [cross, dir, Prod.fst_add, Prod.snd_add, Prod.smul_fst, Prod.smul_snd, smul_eq_mul]
  linear_combination r * (r - (s + t)) * hs

theorem dir_ne (α : ℝ) : dir α ≠ 0 := by
  intro h
  have h1 : cos α = 0 := congrArg Prod.fst h
  have h2 : sin α = 0 := congrArg Prod.snd h
  have := sin_sq_add_cos_sq α
  rw [h1, h2] at this
  norm_num at this

theorem dir_ne_dir {α δ : ℝ} (hδ : sin δ ≠ 0) : dir α ≠ dir (α + δ) := by
  intro h
  apply hδ
  have e : δ = (α + δ) - α := by ring
  rw [e, ← cross_dir, ← h, cross_self_right]

/-- A point off the origin in polar coordinates. -/
theorem exists_polar {p : P2} (hp : p ≠ 0) : ∃ r φ : ℝ, 0 < r ∧ 0 ≤ φ ∧ φ < 2 * π ∧ p = r • dir φ := by
  obtain ⟨z, hz⟩ : ∃ z : ℂ, z = ⟨p.1, p.2⟩ := ⟨_, rfl⟩
  have zr : z.re = p.1 := by rw [hz]
  have zi : z.im = p.2 := by rw [hz]
  have hz0 : z ≠ 0 := by
    intro h
    apply hp
    ext
    · rw [← zr, h]; rfl
    · rw [← zi, h]; rfl
  have hn : 0 < ‖z‖ := norm_pos_iff.mpr hz0
  have hc := Complex.norm_mul_cos_arg z
  have hs := Complex.norm_mul_sin_arg z
  have h1 := Complex.neg_pi_lt_arg z
  have h2 := Complex.arg_le_pi z
  rcases le_or_gt 0 z.arg with h | h
  · refine ⟨‖z‖, z.arg, hn, h, by linarith [pi_pos], ?_⟩
    ext
    · simp only [dir, Prod.smul_fst, smul_eq_mul, hc, zr]
    · simp only [dir, Prod.smul_snd, smul_eq_mul, hs, zi]
  · refine ⟨‖z‖, z.arg + 2 * π, hn, by linarith [pi_pos], by linarith, ?_⟩
    ext
    · simp only [dir, Prod.smul_fst, smul_eq_mul, cos_add_two_pi, hc, zr]
    · simp only [dir, Prod.smul_snd, smul_eq_mul, sin_add_two_pi, hs, zi]

/-- Positive coordinates in a sector: the angle is inside. -/
theorem angle_in_sector {α δ r φ s t : ℝ} (ha : 0 ≤ α) (hb : α + δ ≤ 2 * π) (hd : 0 < δ) (hd' : δ < π) (hr : 0 < r)
    (h0 : 0 ≤ φ) (h1 : φ < 2 * π) (hs : 0 < s) (ht : 0 < t) (he : r • dir φ = s • dir α + t • dir (α + δ)) :
    α < φ ∧ φ < α + δ := by
  have hsd : 0 < sin δ := sin_pos_of_pos_of_lt_pi hd hd'
  have k1 : 0 < sin (φ - α) := by
    have : r * sin (φ - α) = t * sin δ := by
      rw [← cross_left α δ s t, ← he, ← cross_dir]
      simp only [cross, Prod.fst_zero, Prod.snd_zero, sub_zero, Prod.smul_fst, Prod.smul_snd, smul_eq_mul]; ring
    exact pos_of_mul_pos_right (this ▸ mul_pos ht hsd) hr.le
  have k2 : 0 < sin (α + δ - φ) := by
    have : r * sin (α + δ - φ) = s * sin δ := by
      rw [← cross_right α δ s t, ← he, ← cross_dir]
      simp only [cross, Prod.fst_zero, Prod.snd_zero, sub_zero, zero_sub, Prod.smul_fst, Prod.smul_snd, smul_eq_mul]; ring
    exact pos_of_mul_pos_right (this ▸ mul_pos hs hsd) hr.le
  have hlow : -π < φ - α := by
    by_contra hc
    push Not at hc
    -- then the angle would be below the sector by more than half a turn
    have e1 : sin (α + δ - φ) = sin (α + δ - φ - 2 * π) := (sin_sub_two_pi _).symm
    rw [e1] at k2
    have : sin (α + δ - φ - 2 * π) ≤ 0 := by
      apply sin_nonpos_of_nonpos_of_neg_pi_le <;> linarith
    linarith
  have hl : α < φ := by
    by_contra hc
    push Not at hc
    have : sin (φ - α) ≤ 0 := sin_nonpos_of_nonpos_of_neg_pi_le (by linarith) (by linarith)
    linarith
  have hhigh : φ - α < π + δ := by
    by_contra hc
    push Not at hc
    have e1 : sin (φ - α) = sin (φ - α - 2 * π) := (sin_sub_two_pi _).symm
    rw [e1] at k1
    have : sin (φ - α - 2 * π) ≤ 0 := by
      apply sin_nonpos_of_nonpos_of_neg_pi_le <;> linarith
    linarith
  refine ⟨hl, ?_⟩
  by_contra hc
  push Not at hc
  have : sin (α + δ - φ) ≤ 0 := sin_nonpos_of_nonpos_of_neg_pi_le (by linarith) (by linarith)
  linarith

/-! ### Overlaps -/

theorem wedge_null_ring {α δ lo hi lo' hi' : ℝ} (hδ : 0 < sin δ) (hh : 0 < hi) (h : hi ≤ lo') :
    volume (wedge α δ lo hi ∩ wedge α δ lo' hi') = 0 := by
  refine measure_mono_null (fun x hx => ?_) (volume_line (a := hi • dir α) (b := hi • dir (α + δ)) ?_)
  · obtain ⟨⟨s, t, hs, ht, h1, h2, rfl⟩, s', t', hs', ht', h1', h2', e⟩ := hx
    show cross _ _ _ = 0
    have a1 := cross_left α δ s t
    have a2 := cross_right α δ s t
    rw [e, cross_left] at a1
    rw [e, cross_right] at a2
    have et := mul_right_cancel₀ hδ.ne' a1
    have es := mul_right_cancel₀ hδ.ne' a2
    rw [cross_chord, show s + t = hi by linarith, sub_self, mul_zero, zero_mul]
  · intro e
    exact dir_ne_dir hδ.ne' (smul_right_injective P2 hh.ne' e)

theorem wedge_null_sector {α α' δ lo hi lo' hi' : ℝ} (hd : 0 < δ) (hd' : δ < π) (ha : 0 ≤ α) (hb : α' + δ ≤ 2 * π)
    (h : α + δ ≤ α') : volume (wedge α δ lo hi ∩ wedge α' δ lo' hi') = 0 := by
  have hsd : 0 < sin δ := sin_pos_of_pos_of_lt_pi hd hd'
  have l1 := volume_line (dir_ne α).symm
  have l2 := volume_line (dir_ne (α + δ))
  have l3 := volume_line (dir_ne α').symm
  have l4 := volume_line (dir_ne (α' + δ))
  refine measure_mono_null (fun x hx => ?_)
    (measure_union_null (measure_union_null l1 l2) (measure_union_null l3 l4))
  obtain ⟨⟨s, t, hs, ht, h1, h2, rfl⟩, s', t', hs', ht', h1', h2', e⟩ := hx
  by_contra hno
  simp only [Set.mem_union, Set.mem_setOf_eq, not_or] at hno
  obtain ⟨⟨n1, n2⟩, n3, n4⟩ := hno
  rw [e] at n3 n4
  rw [cross_left] at n1 n3
  rw [cross_right] at n2 n4
  have pt : 0 < t := lt_of_le_of_ne ht fun h0 => n1 (by rw [← h0, zero_mul])
  have ps : 0 < s := lt_of_le_of_ne hs fun h0 => n2 (by rw [← h0, zero_mul])
  have pt' : 0 < t' := lt_of_le_of_ne ht' fun h0 => n3 (by rw [← h0, zero_mul])
  have ps' : 0 < s' := lt_of_le_of_ne hs' fun h0 => n4 (by rw [← h0, zero_mul])
  have hne : s • dir α + t • dir (α + δ) ≠ 0 := by
    intro h0
    apply n1
    rw [← cross_left α δ s t, h0, cross_self_left]
  obtain ⟨r, φ, hr, hφ, hφ', he⟩ := exists_polar hne
  have k1 := angle_in_sector ha (by linarith) hd hd' hr hφ hφ' ps pt he.symm
  have k2 := angle_in_sector (by linarith) hb hd hd' hr hφ hφ' ps' pt' (he.symm.trans e)
  linarith [k1.2, k2.1]

/-! ### Areas -/

theorem volume_sector {α δ r : ℝ} (hδ : 0 < sin δ) (hr : 0 ≤ r) : area (wedge α δ 0 r) = r ^ 2 * sin δ / 2 := by
  rcases hr.lt_or_eq with hp | h0
  · have e : wedge α δ 0 r = tri 0 (r • dir α) (r • dir (α + δ)) := by
      ext x
      constructor
      · rintro ⟨s, t, hs, ht, h1, h2, rfl⟩
        refine mem_tri (1 - (s + t) / r) (s / r) (t / r) ?_ (by positivity) (by positivity) ?_ ?_
        · rw [sub_nonneg, div_le_one hp]; exact h2
        · field_simp; ring
        · simp only [smul_zero, zero_add, smul_smul, div_mul_cancel₀ _ hp.ne']
      · intro hx
        have hq : cross 0 (r • dir α) (r • dir (α + δ)) = r ^ 2 * sin δ := by
          have := cross_left α δ 0 1
          simp only [cross, Prod.fst_zero, Prod.snd_zero, sub_zero, zero_smul, zero_add, one_smul, one_mul] at this
          simp only [cross, Prod.fst_zero, Prod.snd_zero, sub_zero, Prod.smul_fst, Prod.smul_snd, smul_eq_mul]
          linear_combination r ^ 2 * this
        have hc := convex_wedge α δ 0 r
        refine convexHull_min ?_ hc hx
        rintro _ (rfl | rfl | rfl)
        · exact ⟨0, 0, le_rfl, le_rfl, by simp, by simpa using hr, by simp⟩
        · exact ⟨r, 0, hr, le_rfl, by simpa using hr, by simp, by simp⟩
        · exact ⟨0, r, le_rfl, hr, by simpa using hr, by simp, by simp⟩
    rw [e, area, volume_tri, ENNReal.toReal_ofReal (by positivity)]
    have hq : cross 0 (r • dir α) (r • dir (α + δ)) = r ^ 2 * sin δ := by
      have := cross_left α δ 0 1
      simp only [cross, Prod.fst_zero, Prod.snd_zero, sub_zero, zero_smul, zero_add, one_smul, one_mul] at this
      simp only [cross, Prod.fst_zero, Prod.snd_zero, sub_zero, Prod.smul_fst, Prod.smul_snd, smul_eq_mul]
      linear_combination r ^ 2 * this
    rw [hq, abs_of_nonneg (by positivity)]
  · subst h0
    have e : wedge α δ 0 0 = {0} := by
      ext x
      constructor
      · rintro ⟨s, t, hs, ht, h1, h2, rfl⟩
        have : s = 0 := by linarith
        have : t = 0 := by linarith
        subst_vars
        simp
      · rintro rfl
        exact ⟨0, 0, le_rfl, le_rfl, by simp, by simp, by simp⟩
    rw [e, area, measure_singleton]
    simp

theorem isCompact_wedge {α δ lo hi : ℝ} (h0 : 0 ≤ lo) (h1 : lo < hi) : IsCompact (wedge α δ lo hi) := by
  rw [← region_wedge h0 h1]
  exact isCompact_region _

theorem area_wedge {α δ lo hi : ℝ} (hδ : 0 < sin δ) (h0 : 0 ≤ lo) (h1 : lo < hi) :
    area (wedge α δ lo hi) = (hi ^ 2 - lo ^ 2) * sin δ / 2 := by
  rcases h0.lt_or_eq with hp | h0'
  · have hU : wedge α δ 0 hi = wedge α δ 0 lo ∪ wedge α δ lo hi := by
      ext x
      constructor
      · rintro ⟨s, t, hs, ht, h3, h4, rfl⟩
        rcases le_total (s + t) lo with h | h
        · exact .inl ⟨s, t, hs, ht, h3, h, rfl⟩
        · exact .inr ⟨s, t, hs, ht, h, h4, rfl⟩
      · rintro (⟨s, t, hs, ht, h3, h4, rfl⟩ | ⟨s, t, hs, ht, h3, h4, rfl⟩)
        · exact ⟨s, t, hs, ht, h3, by linarith, rfl⟩
        · exact ⟨s, t, hs, ht, by linarith, h4, rfl⟩
    have c1 := isCompact_wedge (α := α) (δ := δ) le_rfl hp
    have c2 := isCompact_wedge (α := α) (δ := δ) h0 h1
    have hA : area (wedge α δ 0 hi) = area (wedge α δ 0 lo) + area (wedge α δ lo hi) := by
      unfold area
      rw [hU, measure_union₀ c2.isClosed.measurableSet.nullMeasurableSet (wedge_null_ring hδ hp le_rfl),
        ENNReal.toReal_add c1.measure_lt_top.ne c2.measure_lt_top.ne]
    rw [volume_sector hδ (by linarith), volume_sector hδ h0] at hA
    linarith
  · subst h0'
    rw [volume_sector hδ h1.le]
    ring

/-! ### The polygon -/

/-- The corner number `j` of the regular polygon with `n` corners on the circle of radius `r`. -/
noncomputable def corner (n : Nat) (r : ℝ) (j : Nat) : P2 := r • dir (2 * π / n * j)

/-- The regular polygon with `n` corners. -/
def polygon (n : Nat) (r : ℝ) : Set P2 := convexHull ℝ {p | ∃ j < n, p = corner n r j}

theorem sin_sum_zero (a b c : ℝ) (h : a + b + c = 0) : sin a + sin b + sin c = -4 * (sin (a / 2) * sin (b / 2) * sin (c / 2)) := by
  obtain rfl : c = -(a + b) := by linarith
  have e1 : sin a = 2 * sin (a / 2) * cos (a / 2) := by rw [← sin_two_mul]; ring_nf
  have e2 : sin b = 2 * sin (b / 2) * cos (b / 2) := by rw [← sin_two_mul]; ring_nf
  have e3 : sin (a + b) = 2 * sin (a / 2 + b / 2) * cos (a / 2 + b / 2) := by rw [← sin_two_mul]; ring_nf
  have e4 : sin (-(a + b) / 2) = - sin (a / 2 + b / 2) := by rw [← sin_neg]; ring_nf
  have ha := sin_sq_add_cos_sq (a / 2)
  have hb := sin_sq_add_cos_sq (b / 2)
  rw [sin_neg, e3, e4, e1, e2, sin_add, cos_add]
  generalize sin (a / 2) = x at *
  generalize cos (a / 2) = y at *
  generalize sin (b / 2) = z at *
  generalize cos (b / 2) = w at *
  linear_combination (-2 * z * w) * ha + (-2 * x * y) * hb

theorem cross_corner (n : Nat) (hn : 3 ≤ n) (r : ℝ) (j k : Nat) (hj : j < n) (hk : k < n) :
    0 ≤ cross (corner n r j) (corner n r (j + 1)) (corner n r k) := by
  have hn0 : (0 : ℝ) < n := by exact_mod_cast (show 0 < n by omega)
  set δ := 2 * π / n with hδ
  have hδ0 : 0 < δ := by positivity
  have hδn : δ * n = 2 * π := by rw [hδ]; field_simp
  have hform : cross (corner n r j) (corner n r (j + 1)) (corner n r k) =
      r ^ 2 * (4 * (sin (δ / 2) * (sin (δ * (k - j - 1) / 2) * sin (δ * (k - j) / 2)))) := by
    have h3 := sin_sum_zero δ (δ * (k - j - 1)) (-(δ * (k - j))) (by ring)
    have d1 : sin δ = cos (δ * j) * sin (δ * (j + 1)) - sin (δ * j) * cos (δ * (j + 1)) := by
      rw [show δ = δ * (j + 1) - δ * j by ring, sin_sub]; ring_nf
    have d2 : sin (δ * (k - j - 1)) = cos (δ * (j + 1)) * sin (δ * k) - sin (δ * (j + 1)) * cos (δ * k) := by
      rw [show δ * ((k : ℝ) - j - 1) = δ * k - δ * (j + 1) by ring, sin_sub]; ring
    have d3 : sin (-(δ * (k - j))) = sin (δ * j) * cos (δ * k) - cos (δ * j) * sin (δ * k) := by
      rw [show -(δ * ((k : ℝ) - j)) = δ * j - δ * k by ring, sin_sub]
    have d4 : sin (-(δ * ((k : ℝ) - j)) / 2) = - sin (δ * (k - j) / 2) := by rw [neg_div, sin_neg]
    rw [d4] at h3
    simp only [cross, corner, dir, Prod.smul_fst, Prod.smul_snd, smul_eq_mul, ← hδ]
    push_cast
    rw [d1, d2, d3, ← d1] at h3
    linear_combination r ^ 2 * h3 + (-r ^ 2) * d1
  rw [hform]
  have hjn : (j : ℝ) + 1 ≤ n := by exact_mod_cast hj
  have hkn : (k : ℝ) + 1 ≤ n := by exact_mod_cast hk
  have hj0 : (0 : ℝ) ≤ j := Nat.cast_nonneg j
  have hk0 : (0 : ℝ) ≤ k := Nat.cast_nonneg k
  have s1 : 0 ≤ sin (δ / 2) := by
    have h3 : (3 : ℝ) ≤ n := by exact_mod_cast hn
    apply sin_nonneg_of_nonneg_of_le_pi <;> nlinarith
  refine mul_nonneg (sq_nonneg r) (mul_nonneg (by norm_num) (mul_nonneg s1 ?_))
  rcases Nat.lt_or_ge j k with h | h
  · have h' : (j : ℝ) + 1 ≤ k := by exact_mod_cast h
    apply mul_nonneg <;> apply sin_nonneg_of_nonneg_of_le_pi <;> nlinarith
  · have h' : (k : ℝ) ≤ j := by exact_mod_cast h
    apply mul_nonneg_of_nonpos_of_nonpos <;> apply sin_nonpos_of_nonpos_of_neg_pi_le <;> nlinarith

theorem polygon_halfplane (n : Nat) (hn : 3 ≤ n) (r : ℝ) (j : Nat) (hj : j < n) (p : P2) (hp : p ∈ polygon n r) :
    0 ≤ cross (corner n r j) (corner n r (j + 1)) p := by
  refine convexHull_min ?_ (convex_halfplane (corner n r j) (corner n r (j + 1))) hp
  rintro _ ⟨k, hk, rfl⟩
  exact cross_corner n hn r j k hj hk

theorem corner_top (n : Nat) (hn : 0 < n) (r : ℝ) : corner n r n = corner n r 0 := by
  have hn0 : (0 : ℝ) < n := by exact_mod_cast hn
  have : 2 * π / n * n = 2 * π := by field_simp
  simp only [corner, this, dir, cos_two_pi, sin_two_pi, Nat.cast_zero, mul_zero, cos_zero, sin_zero]

theorem corner_mem (n : Nat) (r : ℝ) (j : Nat) (hn : 0 < n) (hj : j ≤ n) : corner n r j ∈ polygon n r := by
  rcases hj.lt_or_eq with h | h
  · exact subset_convexHull ℝ _ ⟨j, h, rfl⟩
  · rw [h, corner_top n hn]
    exact subset_convexHull ℝ _ ⟨0, hn, rfl⟩

theorem sum_dir (n : Nat) (hn : 2 ≤ n) : ∑ j ∈ Finset.range n, dir (2 * π / n * j) = 0 := by
  have hp := Complex.isPrimitiveRoot_exp n (by omega)
  have hs := hp.geom_sum_eq_zero (by omega)
  have ht : ∀ j : Nat, Complex.exp (2 * π * Complex.I / n) ^ j = Complex.exp (((2 * π / n * j : ℝ) : ℂ) * Complex.I) := by
    intro j
    rw [← Complex.exp_nat_mul]
    congr 1
    push_cast
    ring
  simp only [ht] at hs
  ext
  · have := congrArg Complex.re hs
    rw [Complex.re_sum] at this
    simp only [Complex.exp_ofReal_mul_I_re, Complex.zero_re] at this
    rw [Prod.fst_sum]
    exact this
  · have := congrArg Complex.im hs
    rw [Complex.im_sum] at this
    simp only [Complex.exp_ofReal_mul_I_im, Complex.zero_im] at this
    rw [Prod.snd_sum]
    exact this

theorem zero_mem_polygon (n : Nat) (hn : 3 ≤ n) (r : ℝ) : (0 : P2) ∈ polygon n r := by
  have hn0 : (0 : ℝ) < n := by exact_mod_cast (show 0 < n by omega)
  have h := (convex_convexHull ℝ {p | ∃ j < n, p = corner n r j}).sum_mem (t := Finset.range n) (w := fun _ => (n : ℝ)⁻¹)
    (z := fun j => corner n r j) (fun j _ => by positivity) (by simp; field_simp)
    (fun j hj => subset_convexHull ℝ _ ⟨j, Finset.mem_range.mp hj, rfl⟩)
  rw [← Finset.smul_sum] at h
  simp only [corner] at h
  rw [← Finset.smul_sum, sum_dir n (by omega), smul_zero, smul_zero] at h
  exact h

theorem wedge_polygon (n : Nat) (hn : 3 ≤ n) {r : ℝ} (hr : 0 < r) (j : Nat) (hj : j < n) :
    wedge (2 * π / n * j) (2 * π / n) 0 r ⊆ polygon n r := by
  rintro _ ⟨s, t, hs, ht, h1, h2, rfl⟩
  have m0 := zero_mem_polygon n hn r
  have m1 := corner_mem n r j (by omega) (by omega)
  have m2 := corner_mem n r (j + 1) (by omega) (by omega)
  have hc : Convex ℝ (polygon n r) := convex_convexHull ℝ _
  have e : s • dir (2 * π / n * j) + t • dir (2 * π / n * j + 2 * π / n) =
      (1 - (s + t) / r) • (0 : P2) + (s / r) • corner n r j + (t / r) • corner n r (j + 1) := by
    simp only [corner, smul_zero, zero_add, smul_smul, div_mul_cancel₀ _ hr.ne']
    congr 3
    push_cast
    ring
  rw [e]
  have h4 : 0 ≤ 1 - (s + t) / r := by rw [sub_nonneg, div_le_one hr]; exact h2
  have := hc.sum_mem (t := Finset.univ) (w := ![1 - (s + t) / r, s / r, t / r]) (z := ![0, corner n r j, corner n r (j + 1)])
    (by intro i _; fin_cases i
        · exact h4
        · exact div_nonneg hs hr.le
        · exact div_nonneg ht hr.le)
    (by simp [Fin.sum_univ_three]; field_simp; ring)
    (by intro i _; fin_cases i
        · exact m0
        · exact m1
        · exact m2)
  simpa [Fin.sum_univ_three] using this

/-- Every point of the polygon lies in a sector. -/
theorem polygon_sector (n : Nat) (hn : 3 ≤ n) {r : ℝ} (hr : 0 < r) (p : P2) (hp : p ∈ polygon n r) :
    ∃ j < n, p ∈ wedge (2 * π / n * j) (2 * π / n) 0 r := by
  have hn0 : (0 : ℝ) < n := by exact_mod_cast (show 0 < n by omega)
  have h3 : (3 : ℝ) ≤ n := by exact_mod_cast hn
  by_cases h0 : p = 0
  · exact ⟨0, by omega, 0, 0, le_rfl, le_rfl, by simp, by simpa using hr.le, by simp [h0]⟩
  obtain ⟨ρ, φ, hρ, hφ, hφ', rfl⟩ := exists_polar h0
  set δ := 2 * π / n with hδ
  have hδ0 : 0 < δ := by have := pi_pos; positivity
  have hδn : δ * n = 2 * π := by rw [hδ]; field_simp
  have hδπ : δ < π := by nlinarith [pi_pos]
  have hsd : 0 < sin δ := sin_pos_of_pos_of_lt_pi hδ0 hδπ
  set j := ⌊φ / δ⌋₊ with hj
  have f1 : (j : ℝ) * δ ≤ φ := by
    have := Nat.floor_le (show 0 ≤ φ / δ by positivity)
    rwa [le_div_iff₀ hδ0] at this
  have f2 : φ < (j + 1) * δ := by
    have := Nat.lt_floor_add_one (φ / δ)
    rwa [div_lt_iff₀ hδ0] at this
  have hjn : j < n := by
    have : (j : ℝ) * δ < n * δ := by linarith
    exact_mod_cast lt_of_mul_lt_mul_right this hδ0.le
  refine ⟨j, hjn, ρ * sin (δ * j + δ - φ) / sin δ, ρ * sin (φ - δ * j) / sin δ, ?_, ?_, ?_, ?_, ?_⟩
  · refine div_nonneg (mul_nonneg hρ.le ?_) hsd.le
    apply sin_nonneg_of_nonneg_of_le_pi <;> nlinarith
  · refine div_nonneg (mul_nonneg hρ.le ?_) hsd.le
    apply sin_nonneg_of_nonneg_of_le_pi <;> nlinarith
  · refine add_nonneg (div_nonneg (mul_nonneg hρ.le ?_) hsd.le) (div_nonneg (mul_nonneg hρ.le ?_) hsd.le) <;>
      apply sin_nonneg_of_nonneg_of_le_pi <;> nlinarith
  all_goals
    have e : ρ • dir φ = (ρ * sin (δ * j + δ - φ) / sin δ) • dir (δ * j) + (ρ * sin (φ - δ * j) / sin δ) • dir (δ * j + δ) := by
      have e1 : sin δ * cos φ = sin (δ * j + δ - φ) * cos (δ * j) + sin (φ - δ * j) * cos (δ * j + δ) := by
        have g1 : sin (δ * j + δ - φ) = sin δ * cos (φ - δ * j) - cos δ * sin (φ - δ * j) := by
          rw [← sin_sub]; ring_nf
        have g2 : cos φ = cos (φ - δ * j) * cos (δ * j) - sin (φ - δ * j) * sin (δ * j) := by
          rw [← cos_add]; ring_nf
        rw [g1, g2, cos_add]; ring
      have e2 : sin δ * sin φ = sin (δ * j + δ - φ) * sin (δ * j) + sin (φ - δ * j) * sin (δ * j + δ) := by
        have g1 : sin (δ * j + δ - φ) = sin δ * cos (φ - δ * j) - cos δ * sin (φ - δ * j) := by
          rw [← sin_sub]; ring_nf
        have g2 : sin φ = sin (φ - δ * j) * cos (δ * j) + cos (φ - δ * j) * sin (δ * j) := by
          rw [← sin_add]; ring_nf
        rw [g1, g2, sin_add]; ring
      ext
      · simp only [dir, Prod.fst_add, Prod.smul_fst, smul_eq_mul]
        have : cos φ = (sin (δ * j + δ - φ) * cos (δ * j) + sin (φ - δ * j) * cos (δ * j + δ)) / sin δ := by
          rw [← e1, mul_div_cancel_left₀ _ hsd.ne']
        rw [this]
        ring
      · simp only [dir, Prod.snd_add, Prod.smul_snd, smul_eq_mul]
        have : sin φ = (sin (δ * j + δ - φ) * sin (δ * j) + sin (φ - δ * j) * sin (δ * j + δ)) / sin δ := by
          rw [← e2, mul_div_cancel_left₀ _ hsd.ne']
        rw [this]
        ring
  · have hh := polygon_halfplane n hn r j hjn _ hp
    rw [e] at hh
    have c1 : corner n r (j + 1) = r • dir (δ * j + δ) := by
      simp only [corner, ← hδ]; push_cast; ring_nf
    rw [c1, show corner n r j = r • dir (δ * j) from rfl, cross_chord] at hh
    by_contra hc
    push Not at hc
    have h5 : r * (r - (ρ * sin (δ * j + δ - φ) / sin δ + ρ * sin (φ - δ * j) / sin δ)) < 0 :=
      mul_neg_of_pos_of_neg hr (by linarith)
    linarith [mul_neg_of_neg_of_pos h5 hsd]
  · exact e

end Sg.Polar
