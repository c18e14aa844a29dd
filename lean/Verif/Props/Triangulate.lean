import Verif.Proof.TriangulateRun
import Verif.Proof.TriangulateCast
/-
Properties C45-C49 of the triangulation.  `hullArea mode sorted` is construction followed by `getConvexHullArea` when
`std::sort` leaves the points in the order `sorted`; areas are Lebesgue measure in the plane.
-/
namespace Sg.Props
open Sg Sg.Triangulate Sg.Spec Sg.Plane MeasureTheory

theorem ptsOf_perm {l s : List (ℝ × ℝ)} (h : s.Perm l) : ptsOf s = ptsOf l := by
  ext x; exact h.mem_iff

theorem readable_kept (l : List (ℝ × ℝ)) : (memOf .keptBuffer l).readable = l.length := rfl

theorem readable_nodup (mode : Mode) {l : List (ℝ × ℝ)} (hclean : TolClean (ptsOf l)) (hnd : l.Nodup) :
    (memOf mode l).readable = l.length := by
  cases mode with
  | standard => show (removeDegenerateSegments l).length = _; rw [removeDegenerate_nodup hclean hnd]
  | keptBuffer => rfl

theorem readable_of (mode : Mode) {l : List (ℝ × ℝ)} (hclean : TolClean (ptsOf l)) (h : mode = .keptBuffer ∨ l.Nodup) :
    (memOf mode l).readable = l.length := by
  rcases h with rfl | h
  · rfl
  · exact readable_nodup mode hclean h

/-! ### C45 -/

/-- C45: for points in convex position that are not all on a line, whatever order the sort leaves, construction succeeds
and the returned area is the area of the convex hull.  Repeated points are allowed when the vector keeps its buffer. -/
theorem C45_hull_area (mode : Mode) (points sorted : List (ℝ × ℝ)) (hsort : IsStdSort points sorted)
    (hclean : TolClean (ptsOf points)) (hcp : ConvexPosition (ptsOf points)) (hnc : ¬ Collinear2 (ptsOf points))
    (hmode : mode = .keptBuffer ∨ points.Nodup) :
    ∃ a, hullArea mode sorted = .ok a ∧ 0 ≤ a ∧ volume (convexHull ℝ (ptsOf points)) = ENNReal.ofReal a := by
  rw [← ptsOf_perm hsort.1] at hclean hcp hnc ⊢
  have hr : (memOf mode sorted).readable = sorted.length :=
    readable_of mode hclean (hmode.imp_right fun h => hsort.1.nodup_iff.mpr h)
  rcases hullArea_run mode sorted hr hclean hcp with h | ⟨_, h, _⟩
  · exact h
  · exact absurd h hnc

/-- C45: for points in convex position, repeated or on a line or not, any area that is returned is the area of the
convex hull. -/
theorem C45_hull_area_returned (mode : Mode) (points sorted : List (ℝ × ℝ)) (hsort : IsStdSort points sorted)
    (hclean : TolClean (ptsOf points)) (hcp : ConvexPosition (ptsOf points)) (a : ℝ) (ha : hullArea mode sorted = .ok a) :
    0 ≤ a ∧ volume (convexHull ℝ (ptsOf points)) = ENNReal.ofReal a := by
  rw [← ptsOf_perm hsort.1] at hclean hcp ⊢
  have ha' : hullArea .keptBuffer sorted = .ok a := by
    cases mode with
    | standard => exact hullArea_modes sorted a ha
    | keptBuffer => exact ha
  rcases hullArea_run .keptBuffer sorted rfl hclean hcp with ⟨b, hb, h0, hv⟩ | ⟨he, _⟩
  · rw [ha'] at hb
    cases hb
    exact ⟨h0, hv⟩
  · rw [ha'] at he; cases he

/-! ### C47 -/

/-- C47: two lists of the same points, in any order and with any repetitions, give the same area. -/
theorem C47_order_repetition (mode mode' : Mode) (points points' sorted sorted' : List (ℝ × ℝ))
    (hset : ∀ p, p ∈ points ↔ p ∈ points') (hsort : IsStdSort points sorted) (hsort' : IsStdSort points' sorted')
    (hclean : TolClean (ptsOf points)) (hcp : ConvexPosition (ptsOf points)) (a a' : ℝ)
    (ha : hullArea mode sorted = .ok a) (ha' : hullArea mode' sorted' = .ok a') : a = a' := by
  have hP : ptsOf points = ptsOf points' := Set.ext hset
  obtain ⟨h0, h⟩ := C45_hull_area_returned mode points sorted hsort hclean hcp a ha
  rw [hP] at hclean hcp h
  obtain ⟨h0', h'⟩ := C45_hull_area_returned mode' points' sorted' hsort' hclean hcp a' ha'
  rw [h] at h'
  exact (ENNReal.ofReal_eq_ofReal_iff h0 h0').mp h'

/-- C47: one number is the area for all the lists of the same points, not all on a line. -/
theorem C47_one_area (points : List (ℝ × ℝ)) (hclean : TolClean (ptsOf points)) (hcp : ConvexPosition (ptsOf points))
    (hnc : ¬ Collinear2 (ptsOf points)) :
    ∃ a : ℝ, ∀ points' sorted' : List (ℝ × ℝ), (∀ p, p ∈ points ↔ p ∈ points') → IsStdSort points' sorted' →
      hullArea .keptBuffer sorted' = .ok a := by
  refine ⟨(volume (convexHull ℝ (ptsOf points))).toReal, ?_⟩
  intro points' sorted' hset hsort
  have hP : ptsOf points = ptsOf points' := Set.ext hset
  rw [hP] at hclean hcp hnc ⊢
  obtain ⟨a, ha, h0, hv⟩ := C45_hull_area .keptBuffer points' sorted' hsort hclean hcp hnc (Or.inl rfl)
  rw [ha, hv, ENNReal.toReal_ofReal h0]

/-! ### C48 -/

/-- C48: different points in convex position that are not all on a line, or less than three points, are read within
bounds only. -/
theorem C48_safe_partial (mode : Mode) (points sorted : List (ℝ × ℝ)) (hsort : IsStdSort points sorted)
    (hclean : TolClean (ptsOf points)) (hcp : ConvexPosition (ptsOf points))
    (hnc : points.length < 3 ∨ ¬ Collinear2 (ptsOf points)) (hnd : points.Nodup) :
    ∀ e, hullArea mode sorted ≠ .error e := by
  intro e he
  have hlen := hsort.1.length_eq
  rw [← ptsOf_perm hsort.1] at hclean hcp hnc
  have hr : (memOf mode sorted).readable = sorted.length := readable_nodup mode hclean (hsort.1.nodup_iff.mpr hnd)
  rcases hullArea_run mode sorted hr hclean hcp with ⟨a, ha, _⟩ | ⟨_, h, _, h3⟩
  · rw [he] at ha; cases ha
  · rcases hnc with hnc | hnc
    · omega
    · exact hnc h

/-- C48 is false: three or more different points on a line always make the constructor read past the end of the array,
whatever the order the sort leaves. -/
theorem C48_line_refuted (mode : Mode) (points sorted : List (ℝ × ℝ)) (hsort : IsStdSort points sorted)
    (hclean : TolClean (ptsOf points)) (hnd : points.Nodup) (h3 : 3 ≤ points.length) (hline : Collinear2 (ptsOf points)) :
    hullArea mode sorted = .error .outOfBounds := by
  have hlen := hsort.1.length_eq
  rw [← ptsOf_perm hsort.1] at hclean hline
  have hnd' : sorted.Nodup := hsort.1.nodup_iff.mpr hnd
  have hr := readable_nodup mode hclean hnd'
  have hs : (memOf mode sorted).size = sorted.length := by
    show (removeDegenerateSegments sorted).length = _
    rw [removeDegenerate_nodup hclean hnd']
  have hl := memOf_length mode sorted
  have hP : (memOf mode sorted).first (memOf mode sorted).readable = ptsOf sorted :=
    memOf_first mode hclean _ (by omega) (by omega)
  have hclean' : TolClean ((memOf mode sorted).first (memOf mode sorted).readable) := by rw [hP]; exact hclean
  rcases makeFirstTriangle_ok (by omega) (by omega) hclean' (memOf_ne mode) with
    ⟨h, _⟩ | ⟨k, t, _, _, _, _, p, hp, q, hq, r, hr', hne⟩ | ⟨k, hft, hk, _, i0, i1, hl'⟩ | ⟨hft, _⟩
  · omega
  · rw [hP] at hp hq hr'
    exact absurd (hline p hp q hq r hr') (by rw [← cross_area2]; exact hne)
  · exfalso
    -- the loop can only end with `i2 = numPoints`, one past the last point
    rcases firstLoop_ok (m := memOf mode sorted) (by omega) (by omega) hclean' ((memOf mode sorted).size - 2) 0 1 2
      (by omega) (by omega) ⟨by omega, by omega, memOf_ne mode (by omega), by
        intro j hj
        rcases (show j = 0 ∨ j = 1 by omega) with rfl | rfl
        · exact left_mem_segment _ _ _
        · exact right_mem_segment _ _ _⟩ with ⟨j0, j1, j2, hok, hj2, hl2, hend⟩ | ⟨herr, _⟩
    · have b0 := hl2.lt0
      have b1 := hl2.lt1
      have hz : cross ((memOf mode sorted).pt j0) ((memOf mode sorted).pt j1) ((memOf mode sorted).pt j2) = 0 := by
        rw [cross_area2]
        apply hline <;> rw [← hP]
        · exact ⟨j0, by omega, rfl⟩
        · exact ⟨j1, by omega, rfl⟩
        · exact ⟨j2, by omega, rfl⟩
      have := hend (by rw [hz, fabs_eq, abs_zero, eps_real]; norm_num)
      omega
    · simp only [Mem.makeFirstTriangle, if_neg (show ¬ (memOf mode sorted).size < 3 by omega),
        Mem.area_ok (m := memOf mode sorted) (by omega) (show 0 < (memOf mode sorted).readable by omega)
        (show 1 < (memOf mode sorted).readable by omega) (show 2 < (memOf mode sorted).readable by omega), bind,
        Except.bind, herr] at hft
      cases hft
  · simp only [hullArea, build, hft, bind, Except.bind]

/-! ### C49 -/

/-- C49: at most two points, or points that all coincide, have area 0, in every mode. -/
theorem C49_degenerate (mode : Mode) (points sorted : List (ℝ × ℝ)) (hsort : IsStdSort points sorted)
    (h : points.length ≤ 2 ∨ ∀ p ∈ points, ∀ q ∈ points, p = q) : hullArea mode sorted = .ok 0 := by
  have hs : (memOf mode sorted).size < 3 := by
    show (removeDegenerateSegments sorted).length < 3
    rcases h with h | h
    · have := removeDegenerate_length sorted
      have := hsort.1.length_eq
      omega
    · cases hq : sorted with
      | nil => simp [removeDegenerateSegments]
      | cons p l =>
        have key : ∀ l : List (ℝ × ℝ), (∀ q ∈ l, q = p) → keepDistinct p l = [] := by
          intro l
          induction l with
          | nil => intro _; rfl
          | cons q l ih =>
            intro hall
            have hqp : q = p := hall q (by simp)
            have hd : ¬ (eps : ℝ) < distanceSquare p q := by
              rw [distanceSquare_eq, eps_real, hqp]; norm_num
            rw [keepDistinct, if_neg hd]
            exact ih fun x hx => hall x (by simp [hx])
        rw [removeDegenerateSegments, key]
        · simp
        · intro q hql
          exact h q (hsort.1.mem_iff.mp (by rw [hq]; simp [hql])) p (hsort.1.mem_iff.mp (by rw [hq]; simp))
  have hft : (memOf mode sorted).makeFirstTriangle = .ok ((memOf mode sorted).size, { edges := [], tris := [] }) := by
    simp only [Mem.makeFirstTriangle, if_pos hs, pure, Except.pure]
  simp only [hullArea, build, hft, bind, Except.bind, addLoop_empty, pure, Except.pure, hullArea_empty]

/-! ### Concrete points -/

/-- The point with integer coordinates. -/
def zpt (p : ℤ × ℤ) : ℝ × ℝ := ((p.1 : ℝ), (p.2 : ℝ))

/-- The same over the rationals, where runs can be evaluated. -/
def qpt (p : ℤ × ℤ) : ℚ × ℚ := ((p.1 : ℚ), (p.2 : ℚ))

theorem castPt_qpt (l : List (ℤ × ℤ)) : (l.map qpt).map castPt = l.map zpt := by
  rw [List.map_map]
  apply List.map_congr_left
  intro p _
  simp [castPt, qpt, zpt]

/-- Points with integer coordinates meet the conditions on tolerances. -/
theorem tolClean_int (l : List (ℤ × ℤ)) : TolClean (ptsOf (l.map zpt)) := by
  have hmem : ∀ p, p ∈ ptsOf (l.map zpt) → ∃ z : ℤ × ℤ, zpt z = p := by
    intro p hp
    obtain ⟨z, _, hz⟩ := List.mem_map.mp hp
    exact ⟨z, hz⟩
  constructor
  · intro p hp q hq hne
    obtain ⟨a, rfl⟩ := hmem p hp
    obtain ⟨b, rfl⟩ := hmem q hq
    have hab : a ≠ b := fun h => hne (by rw [h])
    have h1 : (1 : ℤ) ≤ (b.1 - a.1) ^ 2 + (b.2 - a.2) ^ 2 := by
      by_contra hcon
      apply hab
      have e1 : b.1 - a.1 = 0 := by
        have : (b.1 - a.1) ^ 2 = 0 := by nlinarith [sq_nonneg (b.1 - a.1), sq_nonneg (b.2 - a.2)]
        exact pow_eq_zero_iff (two_ne_zero) |>.mp this
      have e2 : b.2 - a.2 = 0 := by
        have : (b.2 - a.2) ^ 2 = 0 := by nlinarith [sq_nonneg (b.1 - a.1), sq_nonneg (b.2 - a.2)]
        exact pow_eq_zero_iff (two_ne_zero) |>.mp this
      exact Prod.ext (by omega) (by omega)
    have h2 : (1 : ℝ) ≤ ((b.1 : ℝ) - a.1) ^ 2 + ((b.2 : ℝ) - a.2) ^ 2 := by exact_mod_cast h1
    simp only [zpt]
    linarith
  · intro p hp q hq r hr
    obtain ⟨a, rfl⟩ := hmem p hp
    obtain ⟨b, rfl⟩ := hmem q hq
    obtain ⟨c, rfl⟩ := hmem r hr
    have e : area2 (zpt a) (zpt b) (zpt c) =
        (((b.1 - a.1) * (c.2 - a.2) - (b.2 - a.2) * (c.1 - a.1) : ℤ) : ℝ) := by
      simp only [area2, zpt]; push_cast; ring
    rw [e]
    by_cases h0 : (b.1 - a.1) * (c.2 - a.2) - (b.2 - a.2) * (c.1 - a.1) = 0
    · left; rw [h0]; simp
    · right
      have h1 := Int.one_le_abs h0
      have h2 : (1 : ℝ) ≤ |(((b.1 - a.1) * (c.2 - a.2) - (b.2 - a.2) * (c.1 - a.1) : ℤ) : ℝ)| := by
        rw [← Int.cast_abs]; exact_mod_cast h1
      linarith

/-- A rational run decides the real one. -/
theorem hullArea_int (mode : Mode) (l : List (ℤ × ℤ)) :
    hullArea mode (l.map zpt) = (hullArea mode (l.map qpt)).map (fun x : ℚ => (x : ℝ)) := by
  rw [← castPt_qpt, hullArea_cast]

theorem isStdSort_int {l s : List (ℤ × ℤ)} (h : (s.map qpt).Perm (l.map qpt))
    (h' : (s.map qpt).Pairwise fun p q => ¬ distanceSquareFromCenter (gravityCenter (l.map qpt)) q <
      distanceSquareFromCenter (gravityCenter (l.map qpt)) p) : IsStdSort (l.map zpt) (s.map zpt) := by
  rw [← castPt_qpt, ← castPt_qpt]
  exact isStdSort_cast ⟨h, h'⟩

/-! ### C46 -/

/-- C46, the part that holds: points in convex position. -/
theorem C46_convex_position_partial (points sorted : List (ℝ × ℝ)) (hsort : IsStdSort points sorted)
    (hclean : TolClean (ptsOf points)) (hcp : ConvexPosition (ptsOf points)) (hnc : ¬ Collinear2 (ptsOf points)) :
    ∃ a, hullArea .keptBuffer sorted = .ok a ∧ 0 ≤ a ∧ volume (convexHull ℝ (ptsOf points)) = ENNReal.ofReal a :=
  C45_hull_area .keptBuffer points sorted hsort hclean hcp hnc (Or.inl rfl)

/-- C46 is false: for these five different points, two of them inside the triangle of the others, the returned area is 9
and the area of the convex hull is 6. -/
theorem C46_any_points_refuted : ∃ points sorted : List (ℝ × ℝ), IsStdSort points sorted ∧ TolClean (ptsOf points) ∧
    points.Nodup ∧ (∀ mode, hullArea mode sorted = .ok 9) ∧
    volume (convexHull ℝ (ptsOf points)) = ENNReal.ofReal 6 := by
  let l : List (ℤ × ℤ) := [(2, 2), (2, 1), (1, 0), (4, 1), (1, 4)]
  refine ⟨l.map zpt, l.map zpt, isStdSort_int (List.Perm.refl _) (by decide +kernel), tolClean_int l, ?_, ?_, ?_⟩
  · rw [List.nodup_map_iff_inj_on (by decide)]
    intro x _ y _ h
    have h1 := (Prod.ext_iff.mp h).1
    have h2 := (Prod.ext_iff.mp h).2
    simp only [zpt] at h1 h2
    exact Prod.ext (by exact_mod_cast h1) (by exact_mod_cast h2)
  · intro mode
    have : hullArea mode (l.map qpt) = .ok 9 := by cases mode <;> decide +kernel
    rw [hullArea_int, this]
    simp [Except.map]
  · have htri : convexHull ℝ (ptsOf (l.map zpt)) = tri (1, 0) (4, 1) (1, 4) := by
      have hpos : 0 < cross ((1, 0) : ℝ × ℝ) (4, 1) (1, 4) := by simp only [cross]; norm_num
      apply Set.Subset.antisymm
      · apply convexHull_min _ (convex_convexHull ℝ _)
        intro x hx
        have hx : x ∈ l.map zpt := hx
        show x ∈ tri (1, 0) (4, 1) (1, 4)
        rw [mem_tri_iff hpos]
        simp only [l, List.map_cons, List.map_nil, List.mem_cons, List.not_mem_nil, or_false, zpt] at hx
        rcases hx with rfl | rfl | rfl | rfl | rfl <;> simp only [cross] <;> norm_num
      · apply convexHull_mono
        intro x hx
        show x ∈ l.map zpt
        simp only [l, List.map_cons, List.map_nil, List.mem_cons, List.not_mem_nil, or_false, zpt]
        rcases hx with rfl | rfl | rfl
        · right; right; left; norm_num
        · right; right; right; left; norm_num
        · right; right; right; right; norm_num
    rw [htri, volume_tri]
    congr 1
    simp only [cross]
    norm_num

/-! ### Cases meeting the hypotheses -/

/-- Points each of which minimises a non-zero linear function are in convex position. -/
theorem convexPosition_supported {P : Set (ℝ × ℝ)}
    (h : ∀ p ∈ P, ∃ a b : ℝ, (a ≠ 0 ∨ b ≠ 0) ∧ ∀ q ∈ P, a * p.1 + b * p.2 ≤ a * q.1 + b * q.2) : ConvexPosition P := by
  intro p hp hint
  obtain ⟨a, b, hab, hall⟩ := h p hp
  have hhull : ∀ x ∈ convexHull ℝ P, a * p.1 + b * p.2 ≤ a * x.1 + b * x.2 := by
    intro x hx
    refine convexHull_min (t := {x : ℝ × ℝ | a * p.1 + b * p.2 ≤ a * x.1 + b * x.2}) hall ?_ hx
    intro x hx y hy s t hs ht hst
    simp only [Set.mem_ofPred_eq, Prod.fst_add, Prod.snd_add, Prod.smul_fst, Prod.smul_snd, smul_eq_mul] at *
    obtain rfl : s = 1 - t := by linarith
    nlinarith [mul_le_mul_of_nonneg_left hx hs, mul_le_mul_of_nonneg_left hy ht]
  have hcont : Filter.Tendsto (fun e : ℝ => ((p.1 - e * a, p.2 - e * b) : ℝ × ℝ)) (nhds 0) (nhds p) := by
    have : Continuous (fun e : ℝ => ((p.1 - e * a, p.2 - e * b) : ℝ × ℝ)) := by fun_prop
    have h0 := this.tendsto 0
    simpa using h0
  have hev := hcont.eventually (mem_interior_iff_mem_nhds.mp hint)
  have hpos : ∀ᶠ e in nhdsWithin (0 : ℝ) (Set.Ioi 0), (0 : ℝ) < e := self_mem_nhdsWithin
  obtain ⟨e, he, he0⟩ := ((hev.filter_mono nhdsWithin_le_nhds).and hpos).exists
  have := hhull _ he
  simp only at this
  have hsq : 0 < a ^ 2 + b ^ 2 := by
    rcases hab with h | h
    · have := sq_nonneg b; have := sq_pos_of_ne_zero h; linarith
    · have := sq_nonneg a; have := sq_pos_of_ne_zero h; linarith
  nlinarith

/-- Points around a square of side 2, with points in the middle of sides and a repetition. -/
def squarePts : List (ℤ × ℤ) := [(0, 0), (2, 0), (2, 2), (0, 2), (1, 0), (2, 1), (1, 0)]

theorem squarePts_convex : ConvexPosition (ptsOf (squarePts.map zpt)) := by
  apply convexPosition_supported
  intro p hp
  have hp : p ∈ squarePts.map zpt := hp
  simp only [squarePts, List.map_cons, List.map_nil, List.mem_cons, List.not_mem_nil, or_false, zpt] at hp
  have hq : ∀ q ∈ ptsOf (squarePts.map zpt), 0 ≤ q.1 ∧ q.1 ≤ 2 ∧ 0 ≤ q.2 ∧ q.2 ≤ 2 := by
    intro q hq
    have hq : q ∈ squarePts.map zpt := hq
    simp only [squarePts, List.map_cons, List.map_nil, List.mem_cons, List.not_mem_nil, or_false, zpt] at hq
    rcases hq with rfl | rfl | rfl | rfl | rfl | rfl | rfl <;> norm_num
  rcases hp with rfl | rfl | rfl | rfl | rfl | rfl | rfl
  · exact ⟨1, 0, by norm_num, fun q h => by have := hq q h; norm_num; linarith⟩
  · exact ⟨0, 1, by norm_num, fun q h => by have := hq q h; norm_num; linarith⟩
  · exact ⟨-1, 0, by norm_num, fun q h => by have := hq q h; norm_num; linarith⟩
  · exact ⟨1, 0, by norm_num, fun q h => by have := hq q h; norm_num; linarith⟩
  · exact ⟨0, 1, by norm_num, fun q h => by have := hq q h; norm_num; linarith⟩
  · exact ⟨-1, 0, by norm_num, fun q h => by have := hq q h; norm_num; linarith⟩
  · exact ⟨0, 1, by norm_num, fun q h => by have := hq q h; norm_num; linarith⟩

theorem squarePts_not_line : ¬ Collinear2 (ptsOf (squarePts.map zpt)) := by
  intro h
  have hm : ∀ z ∈ squarePts, zpt z ∈ ptsOf (squarePts.map zpt) := fun z hz => List.mem_map_of_mem hz
  have := h _ (hm (0, 0) (by decide)) _ (hm (2, 0) (by decide)) _ (hm (2, 2) (by decide))
  simp only [area2, zpt] at this
  norm_num at this

/-- The order a sort may leave. -/
def squarePtsSorted : List (ℤ × ℤ) := [(1, 0), (1, 0), (2, 1), (2, 0), (0, 0), (2, 2), (0, 2)]

theorem squarePts_sort : IsStdSort (squarePts.map zpt) (squarePtsSorted.map zpt) :=
  isStdSort_int (by decide +kernel) (by decide +kernel)

/-- C45 for these points; the area is 4. -/
example : ∃ a, hullArea .keptBuffer (squarePtsSorted.map zpt) = .ok a ∧ 0 ≤ a ∧
    volume (convexHull ℝ (ptsOf (squarePts.map zpt))) = ENNReal.ofReal a :=
  C45_hull_area .keptBuffer _ _ squarePts_sort (tolClean_int squarePts) squarePts_convex squarePts_not_line (Or.inl rfl)

example : hullArea .keptBuffer (squarePtsSorted.map zpt) = .ok 4 := by
  have : hullArea .keptBuffer (squarePtsSorted.map qpt) = .ok 4 := by decide +kernel
  rw [hullArea_int, this]; simp [Except.map]

/-- C48 is false for repeated points by the C++ standard: the constructor reads the points that were removed. -/
theorem C48_repeated_refuted : ∃ points sorted : List (ℝ × ℝ), IsStdSort points sorted ∧ TolClean (ptsOf points) ∧
    ConvexPosition (ptsOf points) ∧ ¬ Collinear2 (ptsOf points) ∧ hullArea .standard sorted = .error .outOfBounds := by
  refine ⟨_, _, squarePts_sort, tolClean_int squarePts, squarePts_convex, squarePts_not_line, ?_⟩
  have : hullArea .standard (squarePtsSorted.map qpt) = .error .outOfBounds := by decide +kernel
  rw [hullArea_int, this]; rfl

/-- C48: a square without repetitions is safe. -/
example : ∀ e, hullArea .standard ([(1, 0), (2, 1), (2, 0), (0, 0), (2, 2), (0, 2)].map zpt) ≠ .error e := by
  refine C48_safe_partial .standard ([(0, 0), (2, 0), (2, 2), (0, 2), (1, 0), (2, 1)].map zpt) _
    (isStdSort_int (by decide +kernel) (by decide +kernel)) (tolClean_int _) ?_ (Or.inr ?_) ?_
  · rw [show ptsOf ([(0, 0), (2, 0), (2, 2), (0, 2), (1, 0), (2, 1)].map zpt) = ptsOf (squarePts.map zpt) by
      ext x
      simp only [ptsOf, squarePts, List.map_cons, List.map_nil, List.mem_cons, List.not_mem_nil, Set.mem_ofPred_eq]
      tauto]
    exact squarePts_convex
  · rw [show ptsOf ([(0, 0), (2, 0), (2, 2), (0, 2), (1, 0), (2, 1)].map zpt) = ptsOf (squarePts.map zpt) by
      ext x
      simp only [ptsOf, squarePts, List.map_cons, List.map_nil, List.mem_cons, List.not_mem_nil, Set.mem_ofPred_eq]
      tauto]
    exact squarePts_not_line
  · apply List.Nodup.map _ (by decide)
    intro x y h
    have h1 := (Prod.ext_iff.mp h).1
    have h2 := (Prod.ext_iff.mp h).2
    simp only [zpt] at h1 h2
    exact Prod.ext (by exact_mod_cast h1) (by exact_mod_cast h2)

/-- C48: three points on a line. -/
example : hullArea .keptBuffer ([(1, 0), (0, 0), (3, 0)].map zpt) = .error .outOfBounds := by
  refine C48_line_refuted .keptBuffer ([(0, 0), (1, 0), (3, 0)].map zpt) _
    (isStdSort_int (by decide +kernel) (by decide +kernel)) (tolClean_int _) ?_ (by simp) ?_
  · apply List.Nodup.map _ (by decide)
    intro x y h
    have h1 := (Prod.ext_iff.mp h).1
    have h2 := (Prod.ext_iff.mp h).2
    simp only [zpt] at h1 h2
    exact Prod.ext (by exact_mod_cast h1) (by exact_mod_cast h2)
  · have hm : ∀ p ∈ ptsOf ([((0 : ℤ), (0 : ℤ)), (1, 0), (3, 0)].map zpt), p.2 = 0 := by
      intro p hp
      have hp : p ∈ [((0 : ℤ), (0 : ℤ)), (1, 0), (3, 0)].map zpt := hp
      simp only [List.map_cons, List.map_nil, List.mem_cons, List.not_mem_nil, or_false, zpt] at hp
      rcases hp with rfl | rfl | rfl <;> norm_num
    intro p hp q hq r hr
    simp only [area2, hm p hp, hm q hq, hm r hr]
    ring

end Sg.Props
