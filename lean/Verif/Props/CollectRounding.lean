import Verif.Proof.RoundedSolver
import Verif.Props.HullRounding
import Verif.Props.QuadIntersect
/-
Property C110: the points collected from two quadrilaterals, and the area of their hull, in rounded arithmetic with a backward stable
solver.  The model of the intersector is used at `Fl rnd`.
-/
namespace Sg.Props
open Sg Sg.LinearSolve Sg.Triangulate Sg.QuadIntersect Sg.Spec Sg.Plane MeasureTheory

variable {rnd : ℝ → ℝ} {g : Gels (Fl rnd)} {u β Δ L R D : ℝ}

theorem corner_spread {q1 q2 : Quad ℝ} (hs : SizedBy L R q1) : SpreadBy L (cornerPoints q1 q2) := by
  intro p hp q hq
  obtain ⟨⟨⟨i1, a1⟩, i2, a2⟩, ⟨i3, a3⟩, i4, a4⟩ := hull_between (corner_sub hp).1
  obtain ⟨⟨⟨j1, b1⟩, j2, b2⟩, ⟨j3, b3⟩, j4, b4⟩ := hull_between (corner_sub hq).1
  have h1 := (abs_le.mp (hs i1 j2).2.2.1).1
  have h2 := (abs_le.mp (hs i2 j1).2.2.1).2
  have h3 := (abs_le.mp (hs i3 j4).2.2.2).1
  have h4 := (abs_le.mp (hs i4 j3).2.2.2).2
  constructor <;> rw [abs_le] <;> constructor <;> linarith

theorem volume_hull_collinear {P : Set P2} (h : Collinear2 P) : volume (convexHull ℝ P) = 0 := by
  by_cases hex : ∃ p ∈ P, ∃ q ∈ P, p ≠ q
  · obtain ⟨p, hp, q, hq, hpq⟩ := hex
    exact area_zero_line hpq fun x hx => h p hp q hq x hx
  · push Not at hex
    have hsub : P.Subsingleton := fun p hp q hq => hex p hp q hq
    rcases hsub.eq_empty_or_singleton with he | ⟨p, he⟩ <;> · rw [he]; simp

/-- **C110** In rounded arithmetic an object without earlier points returns the nodes of each quadrilateral that lie in the other one
and the crossings of their edges, in the number and order of exact arithmetic, each within `crossError`; their exact hull is the
intersection. -/
theorem C110_points (hf : SolvesFinely rnd g u β Δ) (s : Isect (Fl rnd)) (hs : Reached g s) (hempty : s.pts = [])
    (q1 q2 : Quad (Fl rnd)) (hsafe : SafePair Δ (valQuad q1) (valQuad q2)) (hsize : SizedBy L R (valQuad q1)) :
    ∃ s' pts' pts, (s.setQuadPoints q1 q2).collectIntersectPoints g = .ok (s', pts') ∧
      List.Forall₂ (NearPt (crossError u β Δ L R)) pts' pts ∧ ptsOf pts = cornerPoints (valQuad q1) (valQuad q2) ∧
      convexHull ℝ (ptsOf pts) = quadRegion (valQuad q1) ∩ quadRegion (valQuad q2) := by
  obtain ⟨sl, e, -⟩ := collect_ok g hf.stable.sizes (s.setQuadPoints q1 q2)
    (show Ready s.slvr from reached_ready hf.stable.sizes hs) q1 q2 rfl rfl
  rw [show (s.setQuadPoints q1 q2).pts = [] from hempty, List.nil_append] at e
  have hge := refGels_contract (K := ℝ)
  have hc := collected_safe hge hf.shape.le hsafe
  refine ⟨_, _, _, e, collected_near hf hge hsize hsafe, hc, ?_⟩
  rw [hc]
  exact hull_corner hsafe.convex.1 hsafe.convex.2 (corner_safe hge hf.shape.le hsafe)

/-- **C110** The area of the hull of the returned points is the area of the intersection, up to `areaError`, whatever the order the sort
leaves; there are at most 24 points. -/
theorem C110_area (hf : SolvesFinely rnd g u β Δ) (hfine : FineBy rnd u 0 (crossError u β Δ L R) L) (s : Isect (Fl rnd))
    (hs : Reached g s) (hempty : s.pts = []) (q1 q2 : Quad (Fl rnd)) (hsafe : SafePair Δ (valQuad q1) (valQuad q2))
    (hsize : SizedBy L R (valQuad q1)) (hclean : TolClean2 (cornerPoints (valQuad q1) (valQuad q2))) :
    ∃ s' pts, (s.setQuadPoints q1 q2).collectIntersectPoints g = .ok (s', pts) ∧ pts.length ≤ 24 ∧
      ∀ sorted, IsStdSort pts sorted → ∀ a, hullArea .keptBuffer sorted = .ok a →
        |a.val - area (quadRegion (valQuad q1) ∩ quadRegion (valQuad q2))| ≤
          areaError u 0 (crossError u β Δ L R) L pts.length (area (quadRegion (valQuad q1) ∩ quadRegion (valQuad q2))) := by
  obtain ⟨s', pts', pts, e, hnear, hc, hh⟩ := C110_points hf s hs hempty q1 q2 hsafe hsize
  refine ⟨s', pts', e, ?_, ?_⟩
  · obtain ⟨sl, e', -⟩ := collect_ok g hf.stable.sizes (s.setQuadPoints q1 q2)
      (show Ready s.slvr from reached_ready hf.stable.sizes hs) q1 q2 rfl rfl
    rw [show (s.setQuadPoints q1 q2).pts = [] from hempty, List.nil_append, e] at e'
    cases e'
    exact collected_le g q1 q2
  · intro sorted hsort a ha
    have := C109_hull_area_returned hfine pts' sorted pts hnear hsort (by rw [hc]; exact corner_spread hsize) (by rw [hc]; exact hclean)
      (by rw [hc]; exact corner_convexPosition hsafe.convex.1 hsafe.convex.2) a ha
    rw [hh] at this
    rw [hnear.length_eq]
    exact this

/-- **C110** If the intersection has interior points, then an area is returned. -/
theorem C110_area_exists (hf : SolvesFinely rnd g u β Δ) (hfine : FineBy rnd u 0 (crossError u β Δ L R) L) (s : Isect (Fl rnd))
    (hs : Reached g s) (hempty : s.pts = []) (q1 q2 : Quad (Fl rnd)) (hsafe : SafePair Δ (valQuad q1) (valQuad q2))
    (hsize : SizedBy L R (valQuad q1)) (hclean : TolClean2 (cornerPoints (valQuad q1) (valQuad q2)))
    (hpos : 0 < area (quadRegion (valQuad q1) ∩ quadRegion (valQuad q2))) :
    ∃ s' pts, (s.setQuadPoints q1 q2).collectIntersectPoints g = .ok (s', pts) ∧
      ∀ sorted, IsStdSort pts sorted → ∃ a, hullArea .keptBuffer sorted = .ok a ∧
        |a.val - area (quadRegion (valQuad q1) ∩ quadRegion (valQuad q2))| ≤
          areaError u 0 (crossError u β Δ L R) L pts.length (area (quadRegion (valQuad q1) ∩ quadRegion (valQuad q2))) := by
  obtain ⟨s', pts', pts, e, hnear, hc, hh⟩ := C110_points hf s hs hempty q1 q2 hsafe hsize
  refine ⟨s', pts', e, ?_⟩
  intro sorted hsort
  have hnc : ¬ Collinear2 (ptsOf pts) := by
    intro hcol
    rw [area, ← hh, volume_hull_collinear hcol] at hpos
    simp at hpos
  have := C109_hull_area hfine .keptBuffer pts' sorted pts hnear hsort (by rw [hc]; exact corner_spread hsize) (by rw [hc]; exact hclean)
      (by rw [hc]; exact corner_convexPosition hsafe.convex.1 hsafe.convex.2) hnc (Or.inl rfl)
  rw [hh] at this
  rw [hnear.length_eq]
  exact this

/-! ### Double precision -/

/-- A solver that is backward stable with the constant 2^-52 is accurate enough for quadrilaterals that are not too flat. -/
theorem solvesFinely_double {g : Gels (Fl (nearest 53))} (hg : GelsStable g (2 ^ (-(52 : ℤ)))) :
    SolvesFinely (nearest 53) g (2 ^ (-(53 : ℤ))) (2 ^ (-(52 : ℤ))) (1 / 4) where
  rounds := nearest_rounds 53
  consts := nearest53_consts
  unit := by norm_num
  pos := by norm_num
  shape := by norm_num
  small := by norm_num [solveError]
  stable := hg

theorem crossError_double : crossError (2 ^ (-(53 : ℤ))) (2 ^ (-(52 : ℤ))) (1 / 4) 2 16 ≤ 27 / 10 ^ 15 := by
  norm_num [crossError, solveError]

theorem fineBy_cross : FineBy (nearest 53) (2 ^ (-(53 : ℤ))) 0 (crossError (2 ^ (-(53 : ℤ))) (2 ^ (-(52 : ℤ))) (1 / 4) 2 16) 2 where
  rounds := nearest_rounds 53
  consts := nearest53_consts
  near := by norm_num [crossError, solveError]
  size := by norm_num
  small := by norm_num [crossError, solveError, sumError, prodError, diffError]

/-- **C110** In double precision, with a solver that is backward stable with the constant 2^-52, quadrilaterals of size 2 at most at
coordinates up to 16: each point is within 2.7e-14, and any returned area is within `7e-12 + 3e-15 A` of the area `A` of the
intersection. -/
theorem C110_double (g : Gels (Fl (nearest 53))) (hg : GelsStable g (2 ^ (-(52 : ℤ)))) (s : Isect (Fl (nearest 53))) (hs : Reached g s)
    (hempty : s.pts = []) (q1 q2 : Quad (Fl (nearest 53))) (hsafe : SafePair (1 / 4) (valQuad q1) (valQuad q2))
    (hsize : SizedBy 2 16 (valQuad q1)) (hclean : TolClean2 (cornerPoints (valQuad q1) (valQuad q2))) :
    ∃ s' pts' pts, (s.setQuadPoints q1 q2).collectIntersectPoints g = .ok (s', pts') ∧
      List.Forall₂ (NearPt (27 / 10 ^ 15)) pts' pts ∧ ptsOf pts = cornerPoints (valQuad q1) (valQuad q2) ∧
      ∀ sorted, IsStdSort pts' sorted → ∀ a, hullArea .keptBuffer sorted = .ok a →
        |a.val - area (quadRegion (valQuad q1) ∩ quadRegion (valQuad q2))| ≤
          7 / 10 ^ 12 + 3 / 10 ^ 15 * area (quadRegion (valQuad q1) ∩ quadRegion (valQuad q2)) := by
  have hf := solvesFinely_double hg
  obtain ⟨s', pts', pts, e, hnear, hc, hh⟩ := C110_points hf s hs hempty q1 q2 hsafe hsize
  obtain ⟨s'', pts'', e', hlen, harea⟩ := C110_area hf fineBy_cross s hs hempty q1 q2 hsafe hsize hclean
  rw [e] at e'
  cases e'
  refine ⟨s', pts', pts, e, ?_, hc, ?_⟩
  · exact hnear.imp fun _ _ h => ⟨h.1.trans crossError_double, h.2.trans crossError_double⟩
  · intro sorted hsort a ha
    refine (harea sorted hsort a ha).trans ?_
    set A := area (quadRegion (valQuad q1) ∩ quadRegion (valQuad q2))
    have hA : 0 ≤ A := ENNReal.toReal_nonneg
    set n := pts'.length
    set k := sumError (2 ^ (-(53 : ℤ))) 0 (crossError (2 ^ (-(53 : ℤ))) (2 ^ (-(52 : ℤ))) (1 / 4) 2 16) 2 with hk
    have hk0 : 0 ≤ k := by rw [hk]; norm_num [crossError, solveError, sumError, prodError, diffError]
    have hk1 : k ≤ 5 / 10 ^ 13 := by rw [hk]; norm_num [crossError, solveError, sumError, prodError, diffError]
    have c1 : (n : ℝ) ≤ 24 := by exact_mod_cast hlen
    have c2 : ((1 : ℝ) + 2 ^ (-(53 : ℤ))) ^ n ≤ 1001 / 1000 :=
      (pow_le_pow_right₀ (by norm_num) hlen).trans (by norm_num : ((1 : ℝ) + 2 ^ (-(53 : ℤ))) ^ 24 ≤ 1001 / 1000)
    unfold areaError
    rw [← hk]
    have h3 : (n : ℝ) * ((1 : ℝ) + 2 ^ (-(53 : ℤ))) ^ n * (k + 2 * 2 ^ (-(53 : ℤ)) * A + 0) ≤
        24 * (1001 / 1000) * (5 / 10 ^ 13 + 2 * 2 ^ (-(53 : ℤ)) * A) := by
      rw [add_zero]
      refine mul_le_mul (mul_le_mul c1 c2 (by positivity) (by norm_num)) (by linarith) (by positivity) (by norm_num)
    have h4 := mul_le_mul_of_nonneg_left h3 (show (0 : ℝ) ≤ (1 + 2 ^ (-(53 : ℤ))) / 2 by norm_num)
    norm_num at h4 ⊢
    linarith

/-! ### A case meeting the hypotheses -/

/-- The rectangle [0,2] x [0,1], and a quadrilateral that is cut by it in points that are no nodes. -/
def zRect : Fin 4 → ℤ × ℤ := ![(0, 0), (2, 0), (2, 1), (0, 1)]
def zKite : Fin 4 → ℤ × ℤ := ![(1, 0), (2, 2), (1, 2), (0, 1)]

/-- Nodes with integer coordinates in rounded arithmetic. -/
noncomputable def flQuad (z : Fin 4 → ℤ × ℤ) : Quad (Fl rnd) := fun i => (⟨(z i).1⟩, ⟨(z i).2⟩)

theorem valQuad_fl (z : Fin 4 → ℤ × ℤ) : valQuad (flQuad z : Quad (Fl rnd)) = zquad z := rfl

/-- The rounded exact solution is backward stable with the constant 2^-52 in double precision. -/
theorem nearGels_double : GelsStable (nearGels (nearest 53)) (2 ^ (-(52 : ℤ))) := by
  have := nearGels_stable (nearest_rounds 53) (by norm_num)
  norm_num at this ⊢
  exact this

theorem rect_kite_safe : SafePair (1 / 4) (zquad zRect) (zquad zKite) :=
  safePair_int (N := 2) (by norm_num) (by norm_num) (by norm_num) (by decide) (by decide) (by decide) (by decide) (by decide) (by decide)
    (by decide)

theorem rect_sized : SizedBy 2 16 (zquad zRect) := by
  intro i j
  fin_cases i <;> fin_cases j <;> norm_num [zquad, zRect]

/-- C110 in double precision, and one of the points is the crossing at (3/2, 1), within 2.7e-14. -/
example : ∃ s' pts', ((Isect.new : Isect (Fl (nearest 53))).setQuadPoints (flQuad zRect) (flQuad zKite)).collectIntersectPoints
      (nearGels (nearest 53)) = .ok (s', pts') ∧ (∃ p ∈ pts', NearPt (27 / 10 ^ 15) p (3 / 2, 1)) ∧
      ∀ sorted, IsStdSort pts' sorted → ∀ a, hullArea .keptBuffer sorted = .ok a →
        |a.val - area (quadRegion (zquad zRect) ∩ quadRegion (zquad zKite))| ≤
          7 / 10 ^ 12 + 3 / 10 ^ 15 * area (quadRegion (zquad zRect) ∩ quadRegion (zquad zKite)) := by
  obtain ⟨s', pts', pts, e, hnear, hc, ha⟩ := C110_double (nearGels (nearest 53)) nearGels_double Isect.new (reached_new _) rfl (flQuad zRect)
    (flQuad zKite) rect_kite_safe rect_sized (corner_frac (by decide) (by decide))
  refine ⟨s', pts', e, ?_, ha⟩
  have hm : ((3 / 2, 1) : ℝ × ℝ) ∈ pts := by
    show _ ∈ ptsOf pts
    rw [hc]
    refine Or.inr (Or.inr ⟨2, 0, ?_, ?_, ?_⟩)
    · simp [valQuad_fl, zquad, zRect, zKite]
    · exact ⟨3/4, 1/4, by norm_num, by norm_num, by norm_num, by ext <;> simp [valQuad_fl, zquad, zRect] <;> norm_num⟩
    · exact ⟨1/2, 1/2, by norm_num, by norm_num, by norm_num, by ext <;> simp [valQuad_fl, zquad, zKite] <;> norm_num⟩
  obtain ⟨hl, h⟩ := List.forall₂_iff_get.mp hnear
  obtain ⟨k, hk, e⟩ := List.getElem_of_mem hm
  refine ⟨pts'[k]'(by omega), List.getElem_mem _, ?_⟩
  have := h k (by omega) hk
  simp only [List.get_eq_getElem, e] at this
  exact this

end Sg.Props
