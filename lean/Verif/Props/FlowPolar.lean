import Verif.Proof.PolarFlow
/-
Property C117: flows of a potential on grids whose cells have two parallel sides, and turns round the pole of a polar grid.
-/
namespace Sg.Props
open Sg Sg.Grids Sg.LinearSolve Sg.Triangulate Sg.QuadIntersect Sg.QuadFlows Sg.FlowInterp Sg.Spec Sg.Plane Sg.Conserve Sg.Polar
open Real (pi)

theorem polarPoint_eq (ρ θ : ℝ) : polarPoint ρ θ = ρ • dir θ := by simp [polarPoint, dir]

/-- **C117**: a full turn counts as one, and the turns differ from the angle over `2 pi` by at most one over the number of corners. -/
theorem C117_turns (n : Nat) (hn : 3 ≤ n) (θ : ℝ) :
    (∀ w : ℤ, polyTurns n (θ + 2 * pi * w) = polyTurns n θ + w) ∧ |polyTurns n θ - θ / (2 * pi)| ≤ 1 / n :=
  ⟨polyTurns_add hn θ, polyTurns_near hn θ⟩

/-- **C117**, a segment of a line and a potential in the plane: `Φ` is the interpolant of the nodal values in every cell, and changes by
at most `L` times the distance inside each cell.  Then the flow is the difference of `Φ` between the ends of the segment, up to
`2e-10 L` for each cell that the segment meets. -/
theorem C117_potential (pert : Nat → Nat → Nat → ℝ) (g : Gels ℝ) (hg : GelsContract g) (srt : List ℝ → List ℝ)
    (hsrt : ∀ l, SortsTo l (srt l)) (n0 n1 : Nat) (h0 : 2 ≤ n0) (h1 : 2 ≤ n1) (hf : n0 * n1 ≤ 1073741824) (xs ys : List ℝ)
    (hx : n0 * n1 ≤ xs.length) (hy : n0 * n1 ≤ ys.length) (n : Nat) (hn : 1 ≤ n) (us vs : List ℝ) (hu : n ≤ us.length)
    (hv : n ≤ vs.length) (htr : ∀ i < n0 - 1, ∀ j < n1 - 1, Trapezoid (gridQuad n1 xs ys i j))
    (phi : Nat → Nat → ℝ) (x y : List ℝ) (hp : PotentialData n0 n1 phi x y) (d : List ℝ) (hd : n - 1 ≤ d.length)
    (Φ : ℝ × ℝ → ℝ) (L : ℝ) (hL : 0 ≤ L)
    (hΦ : ∀ i < n0 - 1, ∀ j < n1 - 1, ∀ z, InCell z → Φ (at_ (gridQuad n1 xs ys i j) z) = bilin (cellPhi phi i j) z)
    (hlip : ∀ i < n0 - 1, ∀ j < n1 - 1, ∀ p ∈ quadRegion (gridQuad n1 xs ys i j), ∀ p' ∈ quadRegion (gridQuad n1 xs ys i j),
      |Φ p - Φ p'| ≤ L * apart p p') :
    ∃ d', flowWith pert g srt [] n0 n1 xs ys n us vs 1 x y d = .ok d' ∧
      ∀ k < n - 1, ∀ a b, a = movedNode pert n us vs k → b = movedNode pert n us vs (k + 1) →
        (∀ p ∈ segment ℝ a b, ∃ i < n0 - 1, ∃ j < n1 - 1, p ∈ quadRegion (gridQuad n1 xs ys i j)) →
        (∀ i < n0 - 1, ∀ j < n1 - 1, ∀ i' < n0 - 1, ∀ j' < n1 - 1, (i, j) ≠ (i', j') →
          (insideParams (gridQuad n1 xs ys i j) a b ∩ insideParams (gridQuad n1 xs ys i' j') a b).Subsingleton) →
        (∀ i < n0 - 1, ∀ j < n1 - 1, ClearLine (gridQuad n1 xs ys i j) a b) →
        ∃ w, d'[k]? = some w ∧ |w - (Φ b - Φ a)| ≤
          (Set.ncard {ij : Nat × Nat | ij.1 < n0 - 1 ∧ ij.2 < n1 - 1 ∧ (insideParams (gridQuad n1 xs ys ij.1 ij.2) a b).Nonempty} : ℝ) *
            (2 * (L * (1 / 10 ^ 10))) := by
  obtain ⟨d', e, hd'⟩ := C117_flow pert g hg srt hsrt n0 n1 h0 h1 hf xs ys hx hy n hn us vs hu hv htr phi x y hp d hd
  refine ⟨d', e, fun k hk a b ha hb hcov honce hclear => ?_⟩
  obtain ⟨w, h2, h3⟩ := hd' k hk a b ha hb hcov honce hclear (fun _ _ => 0) (fun t => Φ (a + t • (b - a))) (L * (1 / 10 ^ 10)) (by
    intro i hi j hj t ht z hz hap
    rw [add_zero, ← hΦ i hi j hj z hz]
    exact (hlip i hi j hj _ (Sg.FlowInterp.at_region _ hz) _ ht.2.2).trans (mul_le_mul_of_nonneg_left hap.le hL))
  refine ⟨w, h2, ?_⟩
  simpa using h3

section
variable (m n : Nat) (hm : 1 ≤ m) (hn : 3 ≤ n) (R : ℝ) (hR : 0 < R) (c r : List ℝ × List ℝ)
  (hc0 : (m + 1) * (n + 1) ≤ c.1.length) (hc1 : (m + 1) * (n + 1) ≤ c.2.length)
  (hr : createPolarGrid (m + 1) (n + 1) (0, 0) R c = .ok r)

include hn hc0 hc1 hr in
theorem polar_quad (i j : Nat) (hi : i < m) (hj : j < n) :
    gridQuad (n + 1) r.1 r.2 i j = wedgeQuad (2 * pi / n * j) (2 * pi / n) (R / m * i) (R / m * (i + 1)) := by
  have nd := fun i j hi hj => polar_node m n (by omega) hn R c r hc0 hc1 hr i j hi hj
  have e : ∀ k, gridQuad (n + 1) r.1 r.2 i j k =
      gridNode (m + 1, n + 1) r.1 r.2 (cellNode i j k).1 (cellNode i j k).2 := fun k => rfl
  have e2 : 2 * pi / n * ((j + 1 : Nat) : ℝ) = 2 * pi / n * j + 2 * pi / n := by push_cast; ring
  have e3 : R / m * ((i + 1 : Nat) : ℝ) = R / m * (i + 1) := by push_cast; ring
  funext k
  rw [e]
  fin_cases k
  · exact nd i j (by omega) (by omega)
  · have := nd (i + 1) j (by omega) (by omega)
    rw [e3] at this
    exact this
  · have := nd (i + 1) (j + 1) (by omega) (by omega)
    rw [e3, e2] at this
    exact this
  · have := nd i (j + 1) (by omega) (by omega)
    rw [e2] at this
    exact this

variable (pert : Nat → Nat → Nat → ℝ) (g : Gels ℝ) (hg : GelsContract g) (srt : List ℝ → List ℝ)
  (hsrt : ∀ l, SortsTo l (srt l)) (hf : (m + 1) * (n + 1) ≤ 1073741824)
  (N : Nat) (hN : 1 ≤ N) (us vs : List ℝ) (hu : N ≤ us.length) (hv : N ≤ vs.length)
  (x y : List ℝ) (hxl : m * (n + 1) ≤ x.length) (hyl : (m + 1) * n ≤ y.length)
  (hx : ∀ i < m, ∀ j ≤ n, x.getD (xEdge (n + 1) i j) 0 = 0) (hy : ∀ i ≤ m, ∀ j < n, y.getD (yEdge (n + 1) i j) 0 = 1 / n)
  (d : List ℝ) (hd : N - 1 ≤ d.length)

include hm hn hR hc0 hc1 hr hg hsrt hf hN hu hv hxl hyl hx hy hd

set_option maxHeartbeats 1000000 in
/-- **C117**, polar grids: with no flow along the radii and the flow `1/n` along each of the `n` chords of every ring, the flow
along a segment of a line is the part of a turn that it makes round the pole, up to `1e-10` for each cell, over the distance of the
segment from the pole. -/
theorem C117_polar :
    ∃ d', flowWith pert g srt [] (m + 1) (n + 1) r.1 r.2 N us vs 1 x y d = .ok d' ∧
      ∀ k < N - 1, ∀ a b, a = movedNode pert N us vs k → b = movedNode pert N us vs (k + 1) →
        ∀ ρ0 ρa θa ρb θb : ℝ, 0 < ρ0 → 0 < ρa → 0 < ρb → a = polarPoint ρa θa → b = polarPoint ρb θb → |θb - θa| < pi →
        a ∈ regularPolygon n R → b ∈ regularPolygon n R → (∀ p ∈ segment ℝ a b, ρ0 ≤ apart p (0, 0)) →
        (∀ i < m, ∀ j < n, ∀ i' < m, ∀ j' < n, (i, j) ≠ (i', j') →
          (insideParams (gridQuad (n + 1) r.1 r.2 i j) a b ∩ insideParams (gridQuad (n + 1) r.1 r.2 i' j') a b).Subsingleton) →
        (∀ i < m, ∀ j < n, ClearLine (gridQuad (n + 1) r.1 r.2 i j) a b) →
        ∃ w, d'[k]? = some w ∧ |w - (polyTurns n θb - polyTurns n θa)| ≤ m * n * (1 / 10 ^ 10) / ρ0 := by
  have hquad := polar_quad m n hn R c r hc0 hc1 hr
  obtain ⟨hl1, hl2⟩ := polar_lengths m n R c r hc0 hc1 hr
  obtain ⟨d0, dlt, dsin⟩ := polar_angle n hn
  have hnp : (0 : ℝ) < n := by exact_mod_cast (show 0 < n by omega)
  have hrad := polar_radii m hm R hR
  have hpot : PotentialData (m + 1) (n + 1) (fun _ j => (j : ℝ) / n) x y := by
    refine ⟨hxl, hyl, fun i j hi hj => ?_, fun i j hi hj => ?_⟩
    · rw [hx i (by omega) j (by omega)]; ring
    · rw [hy i (by omega) j (by omega)]; push_cast; field_simp; ring
  obtain ⟨d', e, hd'⟩ := C117_flow pert g hg srt hsrt (m + 1) (n + 1) (by omega) (by omega) hf r.1 r.2 hl1 hl2 N hN us vs hu hv
    (fun i hi j hj => by
      rw [hquad i j (by omega) (by omega)]
      exact wedge_trapezoid dsin (hrad i).1 (hrad i).2) _ x y hpot d hd
  refine ⟨d', e, fun k hk a b ha hb ρ0 ρa θa ρb θb hρ0 hρa hρb ea eb hθ hap hbp hfar honce hclear => ?_⟩
  simp only [Nat.add_sub_cancel] at hd'
  rw [polarPoint_eq] at ea eb
  -- the cells that the segment meets
  have hcov : ∀ p ∈ segment ℝ a b, ∃ i < m, ∃ j < n, p ∈ quadRegion (gridQuad (n + 1) r.1 r.2 i j) := by
    intro p hp
    have hpp : p ∈ regularPolygon n R := (convex_convexHull ℝ _).segment_subset hap hbp hp
    rw [← C98_covers m n hm hn R hR c r hc0 hc1 hr] at hpp
    obtain ⟨q, hq, hpq⟩ := by simpa [gridRegion] using hpp
    obtain ⟨i, j, hi, hj, rfl⟩ := polar_index m n hn q hq
    rw [polar_cell m n hn R c r hc0 hc1 hr i j hi hj, ← hquad i j hi hj] at hpq
    exact ⟨i, hi, j, hj, hpq⟩
  -- the direction along the segment
  have hseg : ∀ t : ℝ, ∃ ρ θ : ℝ, 0 ≤ t → t ≤ 1 → 0 < ρ ∧ min θa θb ≤ θ ∧ θ ≤ max θa θb ∧ a + t • (b - a) = ρ • dir θ := by
    intro t
    by_cases ht : 0 ≤ t ∧ t ≤ 1
    · obtain ⟨ρ, θ, h⟩ := segment_dir hρa hρb hθ t ht.1 ht.2
      exact ⟨ρ, θ, fun _ _ => by rw [ea, eb]; exact h⟩
    · exact ⟨0, 0, fun h0 h1 => absurd ⟨h0, h1⟩ ht⟩
  choose ρ θ hρθ using hseg
  have hspread : max θa θb - min θa θb < pi := by rw [max_sub_min_eq_abs']; rwa [abs_sub_comm]
  have hfarρ : ∀ t, 0 ≤ t → t ≤ 1 → ρ0 ≤ ρ t := by
    intro t t0 t1
    obtain ⟨h1, -, -, h4⟩ := hρθ t t0 t1
    have := hfar (a + t • (b - a)) ⟨1 - t, t, by linarith, t0, by ring, by module⟩
    rw [h4] at this
    exact this.trans_eq (apart_dir h1.le)
  -- the ends
  have hends : ∀ t θ', (t = 0 ∨ t = 1) → min θa θb ≤ θ' → θ' ≤ max θa θb → (∃ ρ' : ℝ, 0 < ρ' ∧ a + t • (b - a) = ρ' • dir θ') → θ t = θ' := by
    rintro t θ' ht h1 h2 ⟨ρ', h3, h4⟩
    have t01 : 0 ≤ t ∧ t ≤ 1 := by rcases ht with rfl | rfl <;> norm_num
    obtain ⟨g1, g2, g3, g4⟩ := hρθ t t01.1 t01.2
    rw [h4] at g4
    obtain ⟨w, hw⟩ := dir_unique g1 h3 g4.symm
    have hpi := Real.pi_pos
    have : w = 0 := by
      by_contra hne
      rcases lt_or_gt_of_ne hne with h | h
      · have : (w : ℝ) + 1 ≤ 0 := by exact_mod_cast h
        nlinarith
      · have : (1 : ℝ) ≤ w := by exact_mod_cast h
        nlinarith
    rw [hw, this]
    simp
  have hs0 : θ 0 = θa := hends 0 θa (.inl rfl) (min_le_left _ _) (le_max_left _ _) ⟨ρa, hρa, by rw [ea]; simp⟩
  have hs1 : θ 1 = θb := hends 1 θb (.inr rfl) (min_le_right _ _) (le_max_right _ _) ⟨ρb, hρb, by rw [eb]; simp⟩
  -- one turn in each cell
  have hturn : ∀ i j, ∃ w : ℤ, i < m → j < n → ∀ t ∈ insideParams (gridQuad (n + 1) r.1 r.2 i j) a b, ∃ ψ : ℝ, 0 ≤ ψ ∧ ψ ≤ 2 * pi / n ∧
      θ t = 2 * pi / n * ((j + n * w : ℤ) : ℝ) + ψ := by
    intro i j
    by_cases hij : i < m ∧ j < n
    · obtain ⟨w, hw⟩ := same_turn hn _ _ hspread j (insideParams (gridQuad (n + 1) r.1 r.2 i j) a b) θ
        (fun t ht => ⟨(hρθ t ht.1 ht.2.1).2.1, (hρθ t ht.1 ht.2.1).2.2.1⟩) (fun t ht => by
          obtain ⟨t0, t1, hin⟩ := ht
          obtain ⟨h1, -, -, h4⟩ := hρθ t t0 t1
          rw [hquad i j hij.1 hij.2, region_wedge (hrad i).1 (hrad i).2] at hin
          obtain ⟨ρ', ψ, g1, g2, g3, g4⟩ := wedge_dir d0.le dlt hin (by rw [h4]; exact dir_smul_ne h1)
          rw [h4] at g4
          obtain ⟨w, hw⟩ := dir_unique h1 g1 g4
          exact ⟨w, ψ, g2, g3, hw⟩)
      exact ⟨w, fun _ _ => hw⟩
    · exact ⟨0, fun h1 h2 => absurd ⟨h1, h2⟩ hij⟩
  choose W hW using hturn
  obtain ⟨w, hw1, hw2⟩ := hd' k hk a b ha hb hcov honce hclear (fun i j => (W i j : ℝ)) (fun t => polyTurns n (θ t))
    (1 / 10 ^ 10 / (2 * ρ0)) (by
      intro i hi j hj t ht z hz hap
      obtain ⟨ψ, p0, p1, hψ⟩ := hW i j hi hj t ht
      obtain ⟨t0, t1, -⟩ := ht
      obtain ⟨h1, -, -, h4⟩ := hρθ t t0 t1
      have hpt : a + t • (b - a) = ρ t • dir (2 * pi / n * j + ψ) := by
        rw [h4, hψ]
        have hnd : 2 * pi / n * ((j + n * W i j : ℤ) : ℝ) + ψ = 2 * pi / n * j + ψ + W i j * (2 * pi) := by
          push_cast
          field_simp
          ring
        rw [hnd]
        simp only [dir, Real.cos_add_int_mul_two_pi, Real.sin_add_int_mul_two_pi]
      rw [hquad i j hi hj, hpt] at hap
      have key := chord_near d0 dlt (hrad i).1 (hrad i).2 p0 p1 h1 hz hap
      have e1 : bilin (cellPhi (fun _ j => (j : ℝ) / n) i j) z = (j + z 1) / n := by
        simp only [bilin, cellPhi, cellNode]
        push_cast
        ring
      rw [e1, hψ, polyTurns_sector hn _ p0 p1]
      have e2 : ((j : ℝ) + z 1) / n + W i j - (((j + n * W i j : ℤ) : ℝ) + Real.sin ψ / (Real.sin ψ + Real.sin (2 * pi / n - ψ))) / n =
          (z 1 - Real.sin ψ / (Real.sin ψ + Real.sin (2 * pi / n - ψ))) / n := by
        push_cast
        field_simp
        ring
      rw [e2, abs_div, abs_of_pos hnp, div_le_iff₀ hnp]
      refine key.trans ?_
      have h2 := two_le_n_sin hn
      have h3 := hfarρ t t0 t1
      rw [div_mul_eq_mul_div, div_le_div_iff₀ (by positivity) (by positivity)]
      have : 2 * ρ0 ≤ n * (ρ t * Real.sin (2 * pi / n)) := by nlinarith
      nlinarith)
  refine ⟨w, hw1, ?_⟩
  rw [hs0, hs1] at hw2
  refine hw2.trans ?_
  have hcard : Set.ncard {ij : Nat × Nat | ij.1 < m + 1 - 1 ∧ ij.2 < n + 1 - 1 ∧ (insideParams (gridQuad (n + 1) r.1 r.2 ij.1 ij.2) a b).Nonempty} ≤ m * n := by
    have hsub : {ij : Nat × Nat | ij.1 < m + 1 - 1 ∧ ij.2 < n + 1 - 1 ∧ (insideParams (gridQuad (n + 1) r.1 r.2 ij.1 ij.2) a b).Nonempty} ⊆
        ((Finset.range m ×ˢ Finset.range n : Finset (Nat × Nat)) : Set (Nat × Nat)) := by
      rintro ⟨i, j⟩ ⟨h1, h2, -⟩
      simpa using ⟨h1, h2⟩
    have := Set.ncard_le_ncard hsub (Finset.finite_toSet _)
    rwa [Set.ncard_coe_finset, Finset.card_product, Finset.card_range, Finset.card_range] at this
  simp only [Nat.add_sub_cancel] at hcard ⊢
  have hc : (Set.ncard {ij : Nat × Nat | ij.1 < m ∧ ij.2 < n ∧ (insideParams (gridQuad (n + 1) r.1 r.2 ij.1 ij.2) a b).Nonempty} : ℝ) ≤ m * n := by
    exact_mod_cast hcard
  have e3 : 2 * (1 / 10 ^ 10 / (2 * ρ0)) = 1 / 10 ^ 10 / ρ0 := by field_simp
  rw [e3, mul_div_assoc]
  exact mul_le_mul_of_nonneg_right hc (by positivity)

/-- **C117**, polar grids, all the segments of a line that keeps the distance `ρ0` from the pole, its nodes being at the angles `θ k`: the
flows add up to the turns between the first and the last node, which are a whole number if these are at the same angle but for
whole turns. -/
theorem C117_polar_line :
    ∃ d', flowWith pert g srt [] (m + 1) (n + 1) r.1 r.2 N us vs 1 x y d = .ok d' ∧
      ∀ (ρ0 : ℝ) (ρ θ : Nat → ℝ), 0 < ρ0 →
        (∀ k < N, 0 < ρ k ∧ movedNode pert N us vs k = polarPoint (ρ k) (θ k) ∧ movedNode pert N us vs k ∈ regularPolygon n R) →
        (∀ k < N - 1, ∀ a b, a = movedNode pert N us vs k → b = movedNode pert N us vs (k + 1) →
          |θ (k + 1) - θ k| < pi ∧ (∀ p ∈ segment ℝ a b, ρ0 ≤ apart p (0, 0)) ∧
          (∀ i < m, ∀ j < n, ∀ i' < m, ∀ j' < n, (i, j) ≠ (i', j') →
            (insideParams (gridQuad (n + 1) r.1 r.2 i j) a b ∩ insideParams (gridQuad (n + 1) r.1 r.2 i' j') a b).Subsingleton) ∧
          ∀ i < m, ∀ j < n, ClearLine (gridQuad (n + 1) r.1 r.2 i j) a b) →
        |∑ k ∈ Finset.range (N - 1), d'.getD k 0 - (polyTurns n (θ (N - 1)) - polyTurns n (θ 0))| ≤
            (N - 1 : Nat) * (m * n * (1 / 10 ^ 10) / ρ0) ∧
          ∀ w : ℤ, θ (N - 1) = θ 0 + 2 * pi * w →
            |∑ k ∈ Finset.range (N - 1), d'.getD k 0 - w| ≤ (N - 1 : Nat) * (m * n * (1 / 10 ^ 10) / ρ0) := by
  obtain ⟨d', e, hd'⟩ := C117_polar m n hm hn R hR c r hc0 hc1 hr pert g hg srt hsrt hf N hN us vs hu hv x y hxl hyl hx hy d hd
  refine ⟨d', e, fun ρ0 ρ θ hρ0 hnodes hsegs => ?_⟩
  have hone : ∀ k < N - 1, |d'.getD k 0 - (polyTurns n (θ (k + 1)) - polyTurns n (θ k))| ≤ m * n * (1 / 10 ^ 10) / ρ0 := by
    intro k hk
    obtain ⟨a1, a2, a3⟩ := hnodes k (by omega)
    obtain ⟨b1, b2, b3⟩ := hnodes (k + 1) (by omega)
    obtain ⟨c1, c2, c3, c4⟩ := hsegs k hk _ _ rfl rfl
    obtain ⟨w, hw, hle⟩ := hd' k hk _ _ rfl rfl ρ0 _ _ _ _ hρ0 a1 b1 a2 b2 c1 a3 b3 c2 c3 c4
    rw [List.getD_eq_getElem?_getD, hw]
    exact hle
  have hsum : ∀ M ≤ N - 1, |∑ k ∈ Finset.range M, d'.getD k 0 - (polyTurns n (θ M) - polyTurns n (θ 0))| ≤
      (M : Nat) * (m * n * (1 / 10 ^ 10) / ρ0) := by
    intro M
    induction M with
    | zero => intro _; simp
    | succ M ih =>
      intro hM
      have h1 := ih (by omega)
      have h2 := hone M (by omega)
      rw [Finset.sum_range_succ]
      push_cast
      rw [abs_le] at h1 h2 ⊢
      constructor <;> linarith
  refine ⟨hsum _ le_rfl, fun w hw => ?_⟩
  have := hsum _ le_rfl
  rw [hw, polyTurns_add hn, add_sub_cancel_left] at this
  exact this

end
/-! ### A loop round the pole -/

/-- The cells of the polar grid with one ring, four sectors and the radius 4. -/
def zSector (j : Nat) : Fin 4 → ℤ × ℤ :=
  match j with
  | 0 => ![(0, 0), (4, 0), (0, 4), (0, 0)]
  | 1 => ![(0, 0), (0, 4), (-4, 0), (0, 0)]
  | 2 => ![(0, 0), (-4, 0), (0, -4), (0, 0)]
  | _ => ![(0, 0), (0, -4), (4, 0), (0, 0)]

/-- The corners of a square round the pole, the first one again at the end. -/
def zLoop (k : Nat) : ℤ × ℤ := match k with | 1 => (-1, 1) | 2 => (-1, -1) | 3 => (1, -1) | _ => (1, 1)

theorem loop_dir : dir 0 = (1, 0) ∧ dir (pi / 2) = (0, 1) ∧ dir pi = (-1, 0) ∧ dir (pi + pi / 2) = (0, -1) ∧ dir (2 * pi) = (1, 0) := by
  refine ⟨?_, ?_, ?_, ?_, ?_⟩ <;> simp [dir, Real.cos_add, Real.sin_add]

theorem loop_cells (c r : List ℝ × List ℝ) (hc0 : (1 + 1) * (4 + 1) ≤ c.1.length) (hc1 : (1 + 1) * (4 + 1) ≤ c.2.length)
    (hr : createPolarGrid (1 + 1) (4 + 1) (0, 0) (4 : ℝ) c = .ok r) (i j : Nat) (hi : i < 1) (hj : j < 4) :
    gridQuad (4 + 1) r.1 r.2 i j = zquad (zSector j) := by
  rw [polar_quad 1 4 (by norm_num) 4 c r hc0 hc1 hr i j hi hj]
  obtain rfl : i = 0 := by omega
  obtain ⟨d0, d1, d2, d3, d4⟩ := loop_dir
  have e0 : 2 * pi / (4 : Nat) * (0 : Nat) = 0 := by simp
  have e1 : 2 * pi / (4 : Nat) * (1 : Nat) = pi / 2 := by push_cast; ring
  have e2 : 2 * pi / (4 : Nat) * (2 : Nat) = pi := by push_cast; ring
  have e3 : 2 * pi / (4 : Nat) * (3 : Nat) = pi + pi / 2 := by push_cast; ring
  have f0 : (0 : ℝ) + 2 * pi / (4 : Nat) = pi / 2 := by push_cast; ring
  have f1 : pi / 2 + 2 * pi / (4 : Nat) = pi := by push_cast; ring
  have f2 : pi + 2 * pi / (4 : Nat) = pi + pi / 2 := by push_cast; ring
  have f3 : pi + pi / 2 + 2 * pi / (4 : Nat) = 2 * pi := by push_cast; ring
  funext k
  interval_cases j
  · rw [e0]
    fin_cases k <;> simp only [wedgeQuad, f0, d0, d1] <;> ext <;> simp [zquad, zSector]
  · rw [e1]
    fin_cases k <;> simp only [wedgeQuad, f1, d1, d2] <;> ext <;> simp [zquad, zSector]
  · rw [e2]
    fin_cases k <;> simp only [wedgeQuad, f2, d2, d3] <;> ext <;> simp [zquad, zSector]
  · rw [e3]
    fin_cases k <;> simp only [wedgeQuad, f3, d3, d4] <;> ext <;> simp [zquad, zSector]

/-- Signs of the coordinates in a sector. -/
def zSign (j : Nat) : ℤ × ℤ := match j with | 0 => (1, 1) | 1 => (-1, 1) | 2 => (-1, -1) | _ => (1, -1)

theorem sector_sign (j : Nat) (hj : j < 4) {p : ℝ × ℝ} (hp : p ∈ quadRegion (zquad (zSector j))) :
    0 ≤ (zSign j).1 * p.1 ∧ 0 ≤ (zSign j).2 * p.2 := by
  have hc : Convex ℝ {p : ℝ × ℝ | 0 ≤ (zSign j).1 * p.1 ∧ 0 ≤ (zSign j).2 * p.2} := by
    rintro a ⟨a1, a2⟩ b ⟨b1, b2⟩ u v hu hv -
    simp only [Set.mem_setOf_eq, Prod.fst_add, Prod.snd_add, Prod.smul_fst, Prod.smul_snd, smul_eq_mul]
    constructor <;> nlinarith
  refine convexHull_min ?_ hc hp
  rintro _ ⟨k, rfl⟩
  interval_cases j <;> fin_cases k <;> simp [zquad, zSector, zSign]

theorem loop_node (k : Nat) (hk : k < 5) :
    (((zLoop k).1 : ℝ), ((zLoop k).2 : ℝ)) = polarPoint (Real.sqrt 2) (pi / 4 + 2 * pi / 4 * k) := by
  have hs2 : Real.sqrt 2 * Real.sqrt 2 = 2 := Real.mul_self_sqrt (by norm_num)
  have e1 : 2 * pi / 4 * ((1 : Nat) : ℝ) = pi / 2 := by push_cast; ring
  have e2 : 2 * pi / 4 * ((2 : Nat) : ℝ) = pi := by push_cast; ring
  have e3 : 2 * pi / 4 * ((3 : Nat) : ℝ) = pi + pi / 2 := by push_cast; ring
  have e4 : 2 * pi / 4 * ((4 : Nat) : ℝ) = 2 * pi := by push_cast; ring
  have key : Real.sqrt 2 * (Real.sqrt 2 / 2) = 1 := by linarith
  unfold polarPoint
  rw [Real.cos_add, Real.sin_add, Real.cos_pi_div_four, Real.sin_pi_div_four]
  interval_cases k
  · simp [zLoop, key]
  · rw [e1]; simp [zLoop, key]
  · rw [e2]; simp [zLoop, key]
  · rw [e3]; simp [zLoop, key, Real.cos_add, Real.sin_add]
  · rw [e4]; simp [zLoop, key]

theorem loop_inside (c r : List ℝ × List ℝ) (hc0 : (1 + 1) * (4 + 1) ≤ c.1.length) (hc1 : (1 + 1) * (4 + 1) ≤ c.2.length)
    (hr : createPolarGrid (1 + 1) (4 + 1) (0, 0) (4 : ℝ) c = .ok r) (k : Nat) (hk : k < 5) :
    (((zLoop k).1 : ℝ), ((zLoop k).2 : ℝ)) ∈ gridRegion (1 + 1, 4 + 1) r.1 r.2 := by
  have hin : ∀ j < 4, (((zLoop j).1 : ℝ), ((zLoop j).2 : ℝ)) ∈ quadRegion (zquad (zSector j)) := by
    intro j hj
    have hd : ∀ i, zquad (zSector j) i ∈ quadRegion (zquad (zSector j)) := fun i => mem_region _ i
    have hc : Convex ℝ (quadRegion (zquad (zSector j))) := convex_convexHull ℝ _
    have h1 := hc (hd 0) (hd 1) (a := 1 / 2) (b := 1 / 2) (by norm_num) (by norm_num) (by norm_num)
    have h2 := hc (hd 0) (hd 2) (a := 1 / 2) (b := 1 / 2) (by norm_num) (by norm_num) (by norm_num)
    have h3 := hc h1 h2 (a := 1 / 2) (b := 1 / 2) (by norm_num) (by norm_num) (by norm_num)
    convert h3 using 1
    interval_cases j <;> ext <;> simp [zLoop, zquad, zSector] <;> norm_num
  have hcell : ∀ j < 4, gridCell (1 + 1, 4 + 1) r.1 r.2 (0 * 4 + j) = zquad (zSector j) := by
    intro j hj
    rw [polar_cell 1 4 (by norm_num) 4 c r hc0 hc1 hr 0 j (by norm_num) hj, ← polar_quad 1 4 (by norm_num) 4 c r hc0 hc1 hr 0 j (by norm_num) hj,
      loop_cells c r hc0 hc1 hr 0 j (by norm_num) hj]
  have hmem : ∀ j < 4, (((zLoop j).1 : ℝ), ((zLoop j).2 : ℝ)) ∈ gridRegion (1 + 1, 4 + 1) r.1 r.2 := by
    intro j hj
    simp only [gridRegion, Set.mem_iUnion]
    refine ⟨0 * 4 + j, ?_, ?_⟩
    · simp [cellCount]; omega
    · rw [hcell j hj]; exact hin j hj
  interval_cases k
  · exact hmem 0 (by norm_num)
  · exact hmem 1 (by norm_num)
  · exact hmem 2 (by norm_num)
  · exact hmem 3 (by norm_num)
  · exact hmem 0 (by norm_num)

theorem loop_far (k : Nat) (hk : k < 5 - 1) :
    ∀ p ∈ segment ℝ (((zLoop k).1 : ℝ), ((zLoop k).2 : ℝ)) (((zLoop (k + 1)).1 : ℝ), ((zLoop (k + 1)).2 : ℝ)), 1 ≤ apart p (0, 0) := by
  rintro p ⟨u, v, hu, hv, huv, rfl⟩
  apply Real.le_sqrt_of_sq_le
  obtain rfl : u = 1 - v := by linarith
  simp only [Prod.smul_mk, Prod.mk_add_mk, smul_eq_mul, sub_zero]
  interval_cases k <;> simp [zLoop] <;> nlinarith [sq_nonneg (1 - 2 * v)]

theorem loop_once (k : Nat) (hk : k < 5 - 1) (j : Nat) (hj : j < 4) (j' : Nat) (hj' : j' < 4) (hne : j ≠ j') {t t' : ℝ} :
    let a : ℝ × ℝ := (((zLoop k).1 : ℝ), ((zLoop k).2 : ℝ))
    let b : ℝ × ℝ := (((zLoop (k + 1)).1 : ℝ), ((zLoop (k + 1)).2 : ℝ))
    a + t • (b - a) ∈ quadRegion (zquad (zSector j)) → a + t • (b - a) ∈ quadRegion (zquad (zSector j')) →
    a + t' • (b - a) ∈ quadRegion (zquad (zSector j)) → a + t' • (b - a) ∈ quadRegion (zquad (zSector j')) → t = t' := by
  intro a b h1 h2 h3 h4
  replace h1 := sector_sign j hj h1
  replace h2 := sector_sign j' hj' h2
  replace h3 := sector_sign j hj h3
  replace h4 := sector_sign j' hj' h4
  simp only [a, b, Prod.smul_fst, Prod.smul_snd, Prod.fst_add, Prod.snd_add, Prod.fst_sub, Prod.snd_sub, smul_eq_mul] at h1 h2 h3 h4
  interval_cases k <;> interval_cases j <;> interval_cases j' <;>
    first
    | exact absurd rfl hne
    | (simp only [zSign, zLoop] at h1 h2 h3 h4; push_cast at h1 h2 h3 h4; linarith)

/-- The hypotheses of `C117_polar_line` are met by a square round the pole, with no moves of the nodes: its flow is one, up to
`1.6e-9`. -/
example : ∃ r d', createPolarGrid (1 + 1) (4 + 1) (0, 0) (4 : ℝ) (List.replicate 10 0, List.replicate 10 0) = .ok r ∧
    flowWith (fun _ _ _ => 0) refGels sortReal [] (1 + 1) (4 + 1) r.1 r.2 5 [1, -1, -1, 1, 1] [1, 1, -1, -1, 1] 1 (List.replicate 5 0)
      (List.replicate 8 (1 / 4)) [0, 0, 0, 0] = .ok d' ∧
    |∑ k ∈ Finset.range 4, d'.getD k 0 - 1| ≤ 16 / 10 ^ 10 := by
  obtain ⟨r, hr, -⟩ := C25_polar_partial (1 + 1) (4 + 1) (by omega) (by omega) 4 (List.replicate 10 0, List.replicate 10 0) (by simp) (by simp)
  have hpi := Real.pi_pos
  obtain ⟨d', e, h⟩ := C117_polar_line 1 4 le_rfl (by norm_num) 4 (by norm_num) (List.replicate 10 0, List.replicate 10 0) r (by simp) (by simp) hr
    (fun _ _ _ => 0) refGels refGels_contract sortReal sortReal_ok (by norm_num) 5 (by norm_num) [1, -1, -1, 1, 1] [1, 1, -1, -1, 1]
    (by simp) (by simp) (List.replicate 5 0) (List.replicate 8 (1 / 4)) (by simp) (by simp)
    (by
      intro i hi j hj
      obtain rfl : i = 0 := by omega
      interval_cases j <;> simp [xEdge])
    (by
      intro i hi j hj
      interval_cases i <;> interval_cases j <;> norm_num [yEdge])
    [0, 0, 0, 0] (by simp)
  refine ⟨r, d', hr, e, ?_⟩
  have hnode : ∀ k < 5, movedNode (fun _ _ _ => 0) 5 [1, -1, -1, 1, 1] [1, 1, -1, -1, 1] k = (((zLoop k).1 : ℝ), ((zLoop k).2 : ℝ)) := by
    intro k hk
    interval_cases k <;> simp [movedNode, zLoop]
  have hcell := loop_cells _ r (by simp) (by simp) hr
  have hs2 : Real.sqrt 2 * Real.sqrt 2 = 2 := Real.mul_self_sqrt (by norm_num)
  obtain ⟨-, h⟩ := h 1 (fun _ => Real.sqrt 2) (fun k => pi / 4 + 2 * pi / 4 * k) (by norm_num)
    (by
      intro k hk
      refine ⟨by positivity, ?_, ?_⟩
      · rw [hnode k hk]
        exact loop_node k hk
      · rw [hnode k hk, ← C98_covers 1 4 le_rfl (by norm_num) 4 (by norm_num) _ r (by simp) (by simp) hr]
        exact loop_inside _ r (by simp) (by simp) hr k hk)
    (by
      intro k hk a b ha hb
      rw [hnode k (by omega)] at ha
      rw [hnode (k + 1) (by omega)] at hb
      refine ⟨?_, ?_, ?_, ?_⟩
      · push_cast
        rw [show pi / 4 + 2 * pi / 4 * ((k : ℝ) + 1) - (pi / 4 + 2 * pi / 4 * k) = pi / 2 by ring, abs_of_pos (by positivity)]
        linarith
      · rw [ha, hb]
        exact loop_far k hk
      · intro i hi j hj i' hi' j' hj' hne t ht t' ht'
        have hjj : j ≠ j' := by
          rintro rfl
          exact hne (by rw [show i = i' by omega])
        rw [hcell i j hi hj, hcell i' j' hi' hj', ha, hb] at ht ht'
        exact loop_once k hk j hj j' hj' hjj ht.1.2.2 ht.2.2.2 ht'.1.2.2 ht'.2.2.2
      · intro i hi j hj
        rw [hcell i j hi hj, ha, hb]
        refine clearLine_near ?_ _ _ ?_ ?_
        · intro i' j'
          interval_cases j <;> fin_cases i' <;> fin_cases j' <;> decide
        · interval_cases k <;> decide
        · right
          interval_cases k <;> decide)
  have := h 1 (by push_cast; ring)
  norm_num at this ⊢
  exact this

/-! ### A trapezoid -/

/-- A trapezoid that is not a parallelogram. -/
def zTrap : Fin 4 → ℤ × ℤ := ![(0, 0), (6, 0), (4, 3), (1, 3)]

theorem zTrap_trapezoid : Trapezoid (zquad zTrap) := by
  refine ⟨zquad_convex (by decide), .inr ?_⟩
  simp [Parallel, zquad, zTrap]

/-- The hypotheses of `C117_projections` are met by two points of this trapezoid. -/
example : ∃ p xa xb, project refGels ((Flows.new : Flows ℝ).setQuadPoints (zquad zTrap)) (2, 1) (3, 2) = .ok (0, p) ∧
    ∀ v, flowDot p (edgeDiff v) = bilin v xb - bilin v xa := by
  have hd : ∀ i, zquad zTrap i ∈ quadRegion (zquad zTrap) := fun i => mem_region _ i
  have hc : Convex ℝ (quadRegion (zquad zTrap)) := convex_convexHull ℝ _
  have h1 := hc (hd 0) (hd 1) (a := 5 / 6) (b := 1 / 6) (by norm_num) (by norm_num) (by norm_num)
  have h2 := hc h1 (hd 2) (a := 2 / 3) (b := 1 / 3) (by norm_num) (by norm_num) (by norm_num)
  have h3 := hc h1 (hd 2) (a := 1 / 3) (b := 2 / 3) (by norm_num) (by norm_num) (by norm_num)
  obtain ⟨p, xa, xb, h, -, -, -, -, hv⟩ := C117_projections refGels refGels_contract (zquad zTrap) zTrap_trapezoid Flows.new _ ⟨[], rfl⟩
    ⟨[], by simp, rfl⟩ (2, 1) (3, 2)
    (by convert h2 using 1; ext <;> simp [zquad, zTrap] <;> norm_num)
    (by convert h3 using 1; ext <;> simp [zquad, zTrap] <;> norm_num)
  exact ⟨p, xa, xb, h, hv⟩

/-- The hypotheses of `C117_potential` are met by the first coordinate on the grid with this cell, and a segment in it. -/
example : ∃ d', flowWith (fun _ _ _ => 0) refGels sortReal [] 2 2 ([0, 1, 6, 4] : List ℝ) [0, 3, 0, 3] 2 [2, 3] [1, 2] 1 [6, 3] [1, -2] [0] = .ok d' ∧
    ∃ w, d'[0]? = some w ∧ |w - 1| ≤ 2 / 10 ^ 10 := by
  have hcell : ∀ i < 2 - 1, ∀ j < 2 - 1, gridQuad 2 ([0, 1, 6, 4] : List ℝ) [0, 3, 0, 3] i j = zquad zTrap := by
    intro i hi j hj
    obtain rfl : i = 0 := by omega
    obtain rfl : j = 0 := by omega
    funext k
    fin_cases k <;> simp [gridQuad, nodePlace, cellNode, zquad, zTrap]
  have hd : ∀ i, zquad zTrap i ∈ quadRegion (zquad zTrap) := fun i => mem_region _ i
  have hc : Convex ℝ (quadRegion (zquad zTrap)) := convex_convexHull ℝ _
  have h1 := hc (hd 0) (hd 1) (a := 5 / 6) (b := 1 / 6) (by norm_num) (by norm_num) (by norm_num)
  have h2 := hc h1 (hd 2) (a := 2 / 3) (b := 1 / 3) (by norm_num) (by norm_num) (by norm_num)
  have h3 := hc h1 (hd 2) (a := 1 / 3) (b := 2 / 3) (by norm_num) (by norm_num) (by norm_num)
  have ha : ((2, 1) : ℝ × ℝ) ∈ quadRegion (zquad zTrap) := by convert h2 using 1; ext <;> simp [zquad, zTrap] <;> norm_num
  have hb : ((3, 2) : ℝ × ℝ) ∈ quadRegion (zquad zTrap) := by convert h3 using 1; ext <;> simp [zquad, zTrap] <;> norm_num
  have m0 : movedNode (fun _ _ _ => (0 : ℝ)) 2 [2, 3] [1, 2] 0 = (2, 1) := by simp [movedNode]
  have m1 : movedNode (fun _ _ _ => (0 : ℝ)) 2 [2, 3] [1, 2] (0 + 1) = (3, 2) := by simp [movedNode]
  obtain ⟨d', e, h⟩ := C117_potential (fun _ _ _ => 0) refGels refGels_contract sortReal sortReal_ok 2 2 le_rfl le_rfl (by norm_num)
    [0, 1, 6, 4] [0, 3, 0, 3] (by simp) (by simp) 2 (by norm_num) [2, 3] [1, 2] (by simp) (by simp)
    (fun i hi j hj => by rw [hcell i hi j hj]; exact zTrap_trapezoid)
    (fun i j => ([0, 1, 6, 4] : List ℝ).getD (2 * i + j) 0) [6, 3] [1, -2]
    ⟨by simp, by simp, by
      intro i j hi hj
      obtain rfl : i = 0 := by omega
      interval_cases j <;> norm_num [xEdge], by
      intro i j hi hj
      obtain rfl : j = 0 := by omega
      interval_cases i <;> norm_num [yEdge]⟩
    [0] (by simp) (fun p => p.1) 1 (by norm_num)
    (by
      intro i hi j hj z hz
      have e1 := hcell i hi j hj
      obtain rfl : i = 0 := by omega
      obtain rfl : j = 0 := by omega
      rw [e1]
      simp [at_, bilin, cellPhi, cellNode, zquad, zTrap])
    (by
      intro i hi j hj p hp p' hp'
      rw [one_mul]
      apply Real.abs_le_sqrt
      nlinarith [sq_nonneg (p.2 - p'.2)])
  refine ⟨d', e, ?_⟩
  obtain ⟨w, hw, hle⟩ := h 0 (by norm_num) _ _ m0.symm m1.symm
    (fun p hp => ⟨0, by norm_num, 0, by norm_num, by rw [hcell 0 (by norm_num) 0 (by norm_num)]; exact hc.segment_subset ha hb hp⟩)
    (fun i hi j hj i' hi' j' hj' hne => absurd (by ext <;> simp <;> omega) hne)
    (fun i hi j hj => by
      rw [hcell i hi j hj]
      simpa using clearLine_int (z := zTrap) (by decide) (by decide) (2, 1) (3, 2) (by decide) (by decide) (by decide))
  refine ⟨w, hw, ?_⟩
  have hcard : Set.ncard {ij : Nat × Nat | ij.1 < 2 - 1 ∧ ij.2 < 2 - 1 ∧
      (insideParams (gridQuad 2 ([0, 1, 6, 4] : List ℝ) [0, 3, 0, 3] ij.1 ij.2) (2, 1) (3, 2)).Nonempty} ≤ 1 := by
    rw [Set.ncard_le_one (Set.Finite.subset (Set.finite_singleton ((0, 0) : Nat × Nat)) (by
      rintro ⟨i, j⟩ ⟨h1, h2, -⟩
      simp only [Set.mem_singleton_iff, Prod.mk.injEq]
      omega))]
    rintro ⟨i, j⟩ ⟨h1, h2, -⟩ ⟨i', j'⟩ ⟨h1', h2', -⟩
    simp only [Prod.mk.injEq] at *
    omega
  have hcard' : (Set.ncard {ij : Nat × Nat | ij.1 < 2 - 1 ∧ ij.2 < 2 - 1 ∧
      (insideParams (gridQuad 2 ([0, 1, 6, 4] : List ℝ) [0, 3, 0, 3] ij.1 ij.2) (2, 1) (3, 2)).Nonempty} : ℝ) ≤ 1 := by exact_mod_cast hcard
  refine (le_trans (le_of_eq ?_) (hle.trans (mul_le_mul_of_nonneg_right hcard' (by norm_num)))).trans (by norm_num)
  norm_num

end Sg.Props
