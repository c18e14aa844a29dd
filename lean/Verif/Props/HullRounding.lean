import Verif.Proof.TriangulateRounded
import Verif.Proof.Rounded
import Verif.Props.Triangulate
/-
Property C109: the area of the convex hull in rounded arithmetic.  The model of the triangulation is used at `Fl rnd`, for points that are
known within `ρ`, and compared with the area of the hull of the exact points.
-/
namespace Sg.Props
open Sg Sg.Triangulate Sg.Spec Sg.Plane MeasureTheory

variable {rnd : ℝ → ℝ} {u η ρ D : ℝ}

/-- The exact points in the order the sort leaves. -/
theorem sorted_near {points' sorted' : List (Pt (Fl rnd))} {points : List (ℝ × ℝ)} (hnear : List.Forall₂ (NearPt ρ) points' points)
    (h : sorted'.Perm points') : ∃ sorted, List.Forall₂ (NearPt ρ) sorted' sorted ∧ sorted.Perm points := by
  obtain ⟨s, h1, h2⟩ := List.perm_comp_forall₂ h hnear
  exact ⟨s, h1, h2⟩

/-- **C109** For points in convex position that are not all on a line, known within `ρ` and clean by twice the tolerance, in whatever order
the sort leaves the computed points, construction succeeds and the returned area is the area of the convex hull of the exact points, up
to `areaError`. -/
theorem C109_hull_area (hf : FineBy rnd u η ρ D) (mode : Mode) (points' sorted' : List (Fl rnd × Fl rnd)) (points : List (ℝ × ℝ))
    (hnear : List.Forall₂ (NearPt ρ) points' points) (hsort : IsStdSort points' sorted') (hs : SpreadBy D (ptsOf points))
    (hclean : TolClean2 (ptsOf points)) (hcp : ConvexPosition (ptsOf points)) (hnc : ¬ Collinear2 (ptsOf points))
    (hmode : mode = .keptBuffer ∨ points.Nodup) :
    ∃ a, hullArea mode sorted' = .ok a ∧ |a.val - (volume (convexHull ℝ (ptsOf points))).toReal| ≤
      areaError u η ρ D points.length (volume (convexHull ℝ (ptsOf points))).toReal := by
  obtain ⟨sorted, hn, hp⟩ := sorted_near hnear hsort.1
  rw [← ptsOf_perm hp] at hs hclean hcp hnc ⊢
  rw [← hp.length_eq]
  have hr : (memOf mode sorted).readable = sorted.length :=
    readable_of mode hclean.tolClean (hmode.imp_right fun h => hp.nodup_iff.mpr h)
  rcases hullArea_near hf hs hclean mode hn rfl hr hcp with h | ⟨_, h, _⟩
  · exact h
  · exact absurd h hnc

/-- **C109** For points in convex position, repeated or on a line or not, any area that is returned is the area of the convex hull of the
exact points, up to `areaError`. -/
theorem C109_hull_area_returned (hf : FineBy rnd u η ρ D) (points' sorted' : List (Fl rnd × Fl rnd)) (points : List (ℝ × ℝ))
    (hnear : List.Forall₂ (NearPt ρ) points' points) (hsort : IsStdSort points' sorted') (hs : SpreadBy D (ptsOf points))
    (hclean : TolClean2 (ptsOf points)) (hcp : ConvexPosition (ptsOf points)) (a : Fl rnd)
    (ha : hullArea .keptBuffer sorted' = .ok a) :
    |a.val - (volume (convexHull ℝ (ptsOf points))).toReal| ≤
      areaError u η ρ D points.length (volume (convexHull ℝ (ptsOf points))).toReal := by
  obtain ⟨sorted, hn, hp⟩ := sorted_near hnear hsort.1
  rw [← ptsOf_perm hp] at hs hclean hcp ⊢
  rw [← hp.length_eq]
  rcases hullArea_near hf hs hclean .keptBuffer hn rfl (readable_kept sorted) hcp with ⟨b, hb, h⟩ | ⟨he, _⟩
  · rw [ha] at hb; cases hb; exact h
  · rw [ha] at he; cases he

/-- **C109** The triangles and boundary edges are those of exact arithmetic, whatever the points: convex position is not needed. -/
theorem C109_same_mesh (hf : FineBy rnd u η ρ D) (mode : Mode) (sorted' : List (Fl rnd × Fl rnd)) (sorted : List (ℝ × ℝ))
    (hnear : List.Forall₂ (NearPt ρ) sorted' sorted) (hs : SpreadBy D (ptsOf sorted)) (hclean : TolClean2 (ptsOf sorted)) :
    (build mode sorted').map Prod.snd = (build mode sorted).map Prod.snd := by
  rcases build_rel hf hs hclean mode hnear (fun x hx => hx) with ⟨a, b, e1, e2, _, h⟩ | ⟨e, e1, e2⟩
  · rw [e1, e2]; simp only [Except.map, h]
  · rw [e1, e2]; rfl

/-! ### Double precision -/

theorem nearest53_consts : KeepsConsts (nearest 53) where
  two := by have := nearest_exact (p := 53) (m := 1) (k := 1) (by norm_num); norm_num at this; exact this
  half := by have := nearest_exact (p := 53) (m := 1) (k := -1) (by norm_num); norm_num at this; norm_num; exact this
  tera := by have := nearest_exact (p := 53) (m := 1000000000000) (k := 0) (by norm_num); norm_num at this; exact this

/-- In double precision the errors are small enough for points that spread by 16, when the coordinates are exact or off by 2^-52. -/
theorem fineBy_double {ρ : ℝ} (h0 : 0 ≤ ρ) (h : ρ ≤ 1 / 2 ^ 52) : FineBy (nearest 53) (2 ^ (-(53 : ℤ))) 0 ρ 16 where
  rounds := nearest_rounds 53
  consts := nearest53_consts
  near := h0
  size := by norm_num
  small := by
    have e : sumError (2 ^ (-(53 : ℤ))) 0 ρ 16 ≤ sumError (2 ^ (-(53 : ℤ))) 0 (1 / 2 ^ 52) 16 := by
      have d : diffError (2 ^ (-(53 : ℤ))) 0 ρ 16 ≤ diffError (2 ^ (-(53 : ℤ))) 0 (1 / 2 ^ 52) 16 := by
        unfold diffError
        norm_num at *
        linarith
      have d0 : 0 ≤ diffError (2 ^ (-(53 : ℤ))) 0 ρ 16 := by unfold diffError; positivity
      have p : prodError (2 ^ (-(53 : ℤ))) 0 ρ 16 ≤ prodError (2 ^ (-(53 : ℤ))) 0 (1 / 2 ^ 52) 16 := by
        unfold prodError
        gcongr
      unfold sumError
      gcongr
    refine (add_le_add_left e _).trans ?_
    norm_num [sumError, prodError, diffError]

/-- **C109** In double precision, at most 24 points that are double precision numbers and spread by 16: the error of the area `A` is at
most `4e-12 + 3e-15 A`. -/
theorem C109_double (points sorted : List (Fl (nearest 53) × Fl (nearest 53))) (hn : points.length ≤ 24)
    (hsort : IsStdSort points sorted) (hs : SpreadBy 16 (ptsOf (points.map valPt))) (hclean : TolClean2 (ptsOf (points.map valPt)))
    (hcp : ConvexPosition (ptsOf (points.map valPt))) (hnc : ¬ Collinear2 (ptsOf (points.map valPt))) :
    ∃ a, hullArea .keptBuffer sorted = .ok a ∧ |a.val - (volume (convexHull ℝ (ptsOf (points.map valPt)))).toReal| ≤
      4 / 10 ^ 12 + 3 / 10 ^ 15 * (volume (convexHull ℝ (ptsOf (points.map valPt)))).toReal := by
  have hnear : List.Forall₂ (NearPt 0) points (points.map valPt) := by
    rw [List.forall₂_map_right_iff]
    refine List.forall₂_same.2 fun p _ => ?_
    simp [NearPt, valPt]
  obtain ⟨a, ha, h⟩ := C109_hull_area (fineBy_double le_rfl (by norm_num)) .keptBuffer points sorted _ hnear hsort hs hclean hcp hnc (Or.inl rfl)
  refine ⟨a, ha, h.trans ?_⟩
  set A := (volume (convexHull ℝ (ptsOf (points.map valPt)))).toReal
  have hA : 0 ≤ A := ENNReal.toReal_nonneg
  rw [List.length_map]
  set n := points.length
  have h1 : areaError (2 ^ (-(53 : ℤ))) 0 0 16 n A ≤ areaError (2 ^ (-(53 : ℤ))) 0 0 16 24 A := by
    have hk : 0 ≤ sumError (2 ^ (-(53 : ℤ))) 0 0 16 := by norm_num [sumError, prodError, diffError]
    unfold areaError
    have c1 : (n : ℝ) ≤ (24 : ℕ) := by exact_mod_cast hn
    have c2 : ((1 : ℝ) + 2 ^ (-(53 : ℤ))) ^ n ≤ (1 + 2 ^ (-(53 : ℤ))) ^ 24 := pow_le_pow_right₀ (by norm_num) hn
    gcongr
  refine h1.trans ?_
  have h2 : ((1 : ℝ) + 2 ^ (-(53 : ℤ))) ^ 24 ≤ 1001 / 1000 := by norm_num
  have hk : sumError (2 ^ (-(53 : ℤ))) 0 0 16 ≤ 26 / 10 ^ 14 := by norm_num [sumError, prodError, diffError]
  have hk0 : 0 ≤ sumError (2 ^ (-(53 : ℤ))) 0 0 16 := by norm_num [sumError, prodError, diffError]
  unfold areaError
  have h3 : (24 : ℕ) * ((1 : ℝ) + 2 ^ (-(53 : ℤ))) ^ 24 * (sumError (2 ^ (-(53 : ℤ))) 0 0 16 + 2 * 2 ^ (-(53 : ℤ)) * A + 0) ≤
      24 * (1001 / 1000) * (26 / 10 ^ 14 + 2 * 2 ^ (-(53 : ℤ)) * A) := by
    push_cast
    rw [add_zero]
    refine mul_le_mul ?_ (by linarith) (by positivity) (by norm_num)
    linarith
  have h4 := mul_le_mul_of_nonneg_left h3 (show (0 : ℝ) ≤ (1 + 2 ^ (-(53 : ℤ))) / 2 by norm_num)
  norm_num at h4 ⊢
  linarith

/-! ### Cases meeting the hypotheses -/

/-- Points with integer coordinates are clean by twice the tolerance. -/
theorem tolClean2_int (l : List (ℤ × ℤ)) : TolClean2 (ptsOf (l.map zpt)) := by
  have hmem : ∀ p, p ∈ ptsOf (l.map zpt) → ∃ z : ℤ × ℤ, zpt z = p := by
    intro p hp
    obtain ⟨z, _, hz⟩ := List.mem_map.mp hp
    exact ⟨z, hz⟩
  constructor
  · intro p hp q hq hne
    obtain ⟨a, rfl⟩ := hmem p hp
    obtain ⟨b, rfl⟩ := hmem q hq
    have h1 : (0 : ℤ) < (b.1 - a.1) ^ 2 + (b.2 - a.2) ^ 2 := by
      rcases (add_nonneg (sq_nonneg (b.1 - a.1)) (sq_nonneg (b.2 - a.2))).lt_or_eq with h | h
      · exact h
      · exfalso
        have e1 : (b.1 - a.1) ^ 2 = 0 := by nlinarith [sq_nonneg (b.1 - a.1), sq_nonneg (b.2 - a.2)]
        have e2 : (b.2 - a.2) ^ 2 = 0 := by nlinarith [sq_nonneg (b.1 - a.1), sq_nonneg (b.2 - a.2)]
        rw [pow_eq_zero_iff two_ne_zero] at e1 e2
        exact hne (by rw [show a = b from Prod.ext (by omega) (by omega)])
    have h2 : (1 : ℝ) ≤ ((b.1 : ℝ) - a.1) ^ 2 + ((b.2 : ℝ) - a.2) ^ 2 := by exact_mod_cast h1
    simp only [zpt]
    linarith
  · intro p hp q hq r hr
    obtain ⟨a, rfl⟩ := hmem p hp
    obtain ⟨b, rfl⟩ := hmem q hq
    obtain ⟨c, rfl⟩ := hmem r hr
    have e : area2 (zpt a) (zpt b) (zpt c) = (((b.1 - a.1) * (c.2 - a.2) - (b.2 - a.2) * (c.1 - a.1) : ℤ) : ℝ) := by
      simp only [area2, zpt]; push_cast; ring
    rw [e]
    by_cases h0 : (b.1 - a.1) * (c.2 - a.2) - (b.2 - a.2) * (c.1 - a.1) = 0
    · left; rw [h0]; simp
    · right
      have h1 := Int.one_le_abs h0
      have h2 : (1 : ℝ) ≤ |(((b.1 - a.1) * (c.2 - a.2) - (b.2 - a.2) * (c.1 - a.1) : ℤ) : ℝ)| := by
        rw [← Int.cast_abs]; exact_mod_cast h1
      linarith

/-- The points around the square, each coordinate off by 2^-52 or rounded. -/
theorem squarePts_spread : SpreadBy 16 (ptsOf (squarePts.map zpt)) := by
  have hq : ∀ q ∈ ptsOf (squarePts.map zpt), 0 ≤ q.1 ∧ q.1 ≤ 2 ∧ 0 ≤ q.2 ∧ q.2 ≤ 2 := by
    intro q hq
    have hq : q ∈ squarePts.map zpt := hq
    simp only [squarePts, List.map_cons, List.map_nil, List.mem_cons, List.not_mem_nil, or_false, zpt] at hq
    rcases hq with rfl | rfl | rfl | rfl | rfl | rfl | rfl <;> norm_num
  intro p hp q hq'
  obtain ⟨a1, a2, a3, a4⟩ := hq p hp
  obtain ⟨b1, b2, b3, b4⟩ := hq q hq'
  constructor <;> rw [abs_le] <;> constructor <;> linarith

/-- C109 in double precision: every perturbation by 2^-52 of the points around the square, in whatever order. -/
example (points' sorted' : List (Fl (nearest 53) × Fl (nearest 53)))
    (hnear : List.Forall₂ (NearPt (1 / 2 ^ 52)) points' (squarePts.map zpt)) (hsort : IsStdSort points' sorted') :
    ∃ a, hullArea .keptBuffer sorted' = .ok a ∧ |a.val - (volume (convexHull ℝ (ptsOf (squarePts.map zpt)))).toReal| ≤
      areaError (2 ^ (-(53 : ℤ))) 0 (1 / 2 ^ 52) 16 (squarePts.map zpt).length (volume (convexHull ℝ (ptsOf (squarePts.map zpt)))).toReal :=
  C109_hull_area (fineBy_double (by norm_num) le_rfl) .keptBuffer _ _ _ hnear hsort squarePts_spread (tolClean2_int squarePts)
    squarePts_convex squarePts_not_line (Or.inl rfl)

/-- C109 in double precision: the points around the square themselves, whatever the order the sort leaves. -/
example (sorted : List (Fl (nearest 53) × Fl (nearest 53)))
    (hsort : IsStdSort (squarePts.map fun z => ((⟨z.1⟩, ⟨z.2⟩) : Fl (nearest 53) × Fl (nearest 53))) sorted) :
    ∃ a, hullArea .keptBuffer sorted = .ok a ∧ |a.val - (volume (convexHull ℝ (ptsOf (squarePts.map zpt)))).toReal| ≤
      4 / 10 ^ 12 + 3 / 10 ^ 15 * (volume (convexHull ℝ (ptsOf (squarePts.map zpt)))).toReal := by
  have e : (squarePts.map fun z => ((⟨z.1⟩, ⟨z.2⟩) : Fl (nearest 53) × Fl (nearest 53))).map valPt = squarePts.map zpt := by
    rw [List.map_map]; rfl
  have := C109_double _ sorted (by simp [squarePts]) hsort (by rw [e]; exact squarePts_spread) (by rw [e]; exact tolClean2_int squarePts)
    (by rw [e]; exact squarePts_convex) (by rw [e]; exact squarePts_not_line)
  rw [e] at this
  exact this

end Sg.Props
