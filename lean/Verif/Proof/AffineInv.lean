import Verif.Spec.AffineMap
import Verif.Spec.Cells
import Verif.Proof.PlaneArea
/-
Affine maps of the plane: images of quadrilaterals, areas, and what they do to the conditions about tolerances.
-/
namespace Sg.Plane
open Sg.Spec MeasureTheory

variable (φ : AffineMap2)

theorem app_eq (p : P2) : φ.app p = (φ.e, φ.f) + colMap (φ.a, φ.c) (φ.b, φ.d) p := by
  ext <;> simp [AffineMap2.app, colMap] <;> ring

/-- As an affine map of the library. -/
noncomputable def toAff : P2 →ᵃ[ℝ] P2 :=
  (colMap (φ.a, φ.c) (φ.b, φ.d)).toAffineMap + AffineMap.const ℝ P2 ((φ.e, φ.f) : P2)

theorem toAff_apply (p : P2) : toAff φ p = φ.app p := by
  rw [app_eq, add_comm]; rfl

theorem app_combo (p q : P2) (s t : ℝ) (h : s + t = 1) : φ.app (s • p + t • q) = s • φ.app p + t • φ.app q := by
  have hs : s = 1 - t := by linarith
  subst hs
  ext <;> simp [AffineMap2.app] <;> ring

theorem app_combo3 (p q r : P2) (u v w : ℝ) (h : u + v + w = 1) :
    φ.app (u • p + v • q + w • r) = u • φ.app p + v • φ.app q + w • φ.app r := by
  have hs : u = 1 - v - w := by linarith
  subst hs
  ext <;> simp [AffineMap2.app] <;> ring

theorem app_line (p q : P2) (t : ℝ) : φ.app (p + t • (q - p)) = φ.app p + t • (φ.app q - φ.app p) := by
  ext <;> simp [AffineMap2.app] <;> ring

theorem app_inj (h : φ.det ≠ 0) : Function.Injective φ.app := by
  intro p q hpq
  simp only [AffineMap2.app, Prod.mk.injEq] at hpq
  obtain ⟨h1, h2⟩ := hpq
  unfold AffineMap2.det at h
  have e1 : φ.det * (p.1 - q.1) = 0 := by unfold AffineMap2.det; linear_combination φ.d * h1 - φ.b * h2
  have e2 : φ.det * (p.2 - q.2) = 0 := by unfold AffineMap2.det; linear_combination φ.a * h2 - φ.c * h1
  have hd : φ.det ≠ 0 := h
  ext
  · rcases mul_eq_zero.1 e1 with h | h
    · exact absurd h hd
    · linarith
  · rcases mul_eq_zero.1 e2 with h | h
    · exact absurd h hd
    · linarith

theorem region_image (q : Fin 4 → P2) : quadRegion (fun k => φ.app (q k)) = φ.app '' quadRegion q := by
  have e : φ.app = toAff φ := funext fun p => (toAff_apply φ p).symm
  unfold quadRegion
  rw [e, AffineMap.image_convexHull, ← Set.range_comp]
  rfl

theorem area_image (s : Set P2) : area (φ.app '' s) = |φ.det| * area s := by
  have e : φ.app '' s = (fun x => ((φ.e, φ.f) : P2) + x) '' (colMap (φ.a, φ.c) (φ.b, φ.d) '' s) := by
    rw [← Set.image_comp]
    exact Set.image_congr fun p _ => app_eq φ p
  unfold area
  rw [e, Set.image_add_left, measure_preimage_add, Measure.addHaar_image_linearMap, det_colMap, ENNReal.toReal_mul,
    ENNReal.toReal_ofReal (abs_nonneg _)]
  congr 2
  simp only [AffineMap2.det]; ring

theorem overlap_image (h : φ.det ≠ 0) (d s : Fin 4 → P2) :
    overlapFraction (fun k => φ.app (d k)) (fun k => φ.app (s k)) = overlapFraction d s := by
  unfold overlapFraction
  rw [region_image, region_image, ← Set.image_inter (app_inj φ h), area_image, area_image,
    mul_div_mul_left _ _ (abs_ne_zero.2 h)]

theorem area2_image (p q r : P2) : area2 (φ.app p) (φ.app q) (φ.app r) = φ.det * area2 p q r := by
  simp only [area2, AffineMap2.app, AffineMap2.det]; ring

theorem convexQuad_image (h : φ.det ≠ 0) (q : Fin 4 → P2) (hq : ConvexQuad q) : ConvexQuad fun k => φ.app (q k) := by
  obtain ⟨hq, j, hj⟩ := hq
  unfold ConvexQuad
  simp only [area2_image]
  refine ⟨?_, j, mul_ne_zero h hj⟩
  rcases lt_or_gt_of_ne h with h | h
  · rcases hq with hq | hq
    · exact .inr fun i => mul_nonpos_of_nonpos_of_nonneg h.le (hq i)
    · exact .inl fun i => mul_nonneg_of_nonpos_of_nonpos h.le (hq i)
  · rcases hq with hq | hq
    · exact .inl fun i => mul_nonneg h.le (hq i)
    · exact .inr fun i => mul_nonpos_of_nonneg_of_nonpos h.le (hq i)

theorem clearOfSides_image (h : φ.det ≠ 0) (a b c p : P2) (hc : ClearOfSides a b c p) :
    ClearOfSides (φ.app a) (φ.app b) (φ.app c) (φ.app p) := by
  intro hne u v w h1 h2
  rw [area2_image] at hne
  refine hc (right_ne_zero_of_mul hne) u v w h1 (app_inj φ h ?_)
  rw [app_combo3 φ _ _ _ _ _ _ h1]; exact h2

theorem cross_image (a0 a1 b0 b1 : P2) :
    ((φ.app a1).1 - (φ.app a0).1) * ((φ.app b1).2 - (φ.app b0).2) - ((φ.app a1).2 - (φ.app a0).2) * ((φ.app b1).1 - (φ.app b0).1) =
      φ.det * ((a1.1 - a0.1) * (b1.2 - b0.2) - (a1.2 - a0.2) * (b1.1 - b0.1)) := by
  simp only [AffineMap2.app, AffineMap2.det]; ring

theorem clearCrossing_image (h : φ.det ≠ 0) (a0 a1 b0 b1 : P2) (hc : ClearCrossing a0 a1 b0 b1) :
    ClearCrossing (φ.app a0) (φ.app a1) (φ.app b0) (φ.app b1) := by
  intro h1 s t h2
  rw [cross_image] at h1
  refine hc (fun hz => h1 (by rw [hz, mul_zero])) s t (app_inj φ h ?_)
  rw [app_line, app_line]; exact h2

theorem clearPair_image (h : φ.det ≠ 0) (d s : Fin 4 → P2) (hc : ClearPair d s) :
    ClearPair (fun k => φ.app (d k)) (fun k => φ.app (s k)) :=
  ⟨fun i => ⟨clearOfSides_image φ h _ _ _ _ (hc.nodes12 i).1, clearOfSides_image φ h _ _ _ _ (hc.nodes12 i).2⟩,
   fun i => ⟨clearOfSides_image φ h _ _ _ _ (hc.nodes21 i).1, clearOfSides_image φ h _ _ _ _ (hc.nodes21 i).2⟩,
   fun i j => clearCrossing_image φ h _ _ _ _ (hc.edges i j)⟩

theorem openSegment_image (h : φ.det ≠ 0) (a b p : P2) (hp : p ∈ openSegment ℝ (φ.app a) (φ.app b)) :
    ∃ q ∈ openSegment ℝ a b, p = φ.app q := by
  obtain ⟨s, t, hs, ht, hst, rfl⟩ := hp
  exact ⟨s • a + t • b, ⟨s, t, hs, ht, hst, rfl⟩, (app_combo φ a b s t hst).symm⟩

theorem openSegment_image' (h : φ.det ≠ 0) (a b q : P2) (hp : φ.app q ∈ openSegment ℝ (φ.app a) (φ.app b)) :
    q ∈ openSegment ℝ a b := by
  obtain ⟨r, hr, e⟩ := openSegment_image φ h a b _ hp
  rw [app_inj φ h e]; exact hr

theorem mem_region_image (h : φ.det ≠ 0) (q : Fin 4 → P2) (p : P2)
    (hp : φ.app p ∈ quadRegion fun k => φ.app (q k)) : p ∈ quadRegion q := by
  rw [region_image] at hp
  obtain ⟨r, hr, e⟩ := hp
  rw [← app_inj φ h e]; exact hr

theorem cornerPoints_image (h : φ.det ≠ 0) (d s : Fin 4 → P2) (p : P2)
    (hp : p ∈ cornerPoints (fun k => φ.app (d k)) (fun k => φ.app (s k))) : ∃ q ∈ cornerPoints d s, p = φ.app q := by
  rcases hp with ⟨i, rfl, hp⟩ | ⟨i, rfl, hp⟩ | ⟨i, j, hx, h1, h2⟩
  · exact ⟨d i, .inl ⟨i, rfl, mem_region_image φ h s _ hp⟩, rfl⟩
  · exact ⟨s i, .inr (.inl ⟨i, rfl, mem_region_image φ h d _ hp⟩), rfl⟩
  · obtain ⟨q, hq, rfl⟩ := openSegment_image φ h _ _ _ h1
    refine ⟨q, .inr (.inr ⟨i, j, ?_, hq, openSegment_image' φ h _ _ _ h2⟩), rfl⟩
    intro hz
    apply hx
    have := cross_image φ (d i) (d (i + 1)) (s j) (s (j + 1))
    simp only [Prod.fst_sub, Prod.snd_sub] at hz ⊢
    rw [this, hz, mul_zero]

theorem rigid_det (h : φ.Rigid) : φ.det ^ 2 = 1 := by
  unfold AffineMap2.det
  linear_combination h.col2 * (φ.a ^ 2 + φ.c ^ 2) + h.col1 - h.orth * (φ.a * φ.b + φ.c * φ.d)

theorem rigid_dist (h : φ.Rigid) (p q : P2) :
    ((φ.app q).1 - (φ.app p).1) ^ 2 + ((φ.app q).2 - (φ.app p).2) ^ 2 = (q.1 - p.1) ^ 2 + (q.2 - p.2) ^ 2 := by
  simp only [AffineMap2.app]
  linear_combination h.col1 * (q.1 - p.1) ^ 2 + h.col2 * (q.2 - p.2) ^ 2 + 2 * (q.1 - p.1) * (q.2 - p.2) * h.orth

theorem rigid_ne (h : φ.Rigid) : φ.det ≠ 0 := by
  intro hz
  have := rigid_det φ h
  rw [hz] at this
  norm_num at this

theorem rigid_abs (h : φ.Rigid) : |φ.det| = 1 := by
  have h2 := rigid_det φ h
  rw [← sq_abs] at h2
  nlinarith [abs_nonneg φ.det]

theorem tolClean_image (h : φ.Rigid) (P Q : Set P2) (hQ : ∀ p ∈ Q, ∃ q ∈ P, p = φ.app q) (hP : TolClean P) : TolClean Q := by
  constructor
  · intro p hp q hq hne
    obtain ⟨p', hp', rfl⟩ := hQ p hp
    obtain ⟨q', hq', rfl⟩ := hQ q hq
    rw [rigid_dist φ h]
    exact hP.dist p' hp' q' hq' fun e => hne (by rw [e])
  · intro p hp q hq r hr
    obtain ⟨p', hp', rfl⟩ := hQ p hp
    obtain ⟨q', hq', rfl⟩ := hQ q hq
    obtain ⟨r', hr', rfl⟩ := hQ r hr
    rw [area2_image, abs_mul, rigid_abs φ h, one_mul]
    rcases hP.area p' hp' q' hq' r' hr' with e | e
    · left; rw [e, mul_zero]
    · exact .inr e

theorem cleanCells_image (h : φ.Rigid) (d s : Fin 4 → P2) (hc : CleanCells d s) :
    CleanCells (fun k => φ.app (d k)) (fun k => φ.app (s k)) :=
  have hd := rigid_ne φ h
  ⟨convexQuad_image φ hd d hc.dst, convexQuad_image φ hd s hc.src, clearPair_image φ hd d s hc.clear,
   tolClean_image φ h _ _ (by rintro _ ⟨k, rfl⟩; exact ⟨d k, ⟨k, rfl⟩, rfl⟩) hc.dstPoints,
   tolClean_image φ h _ _ (cornerPoints_image φ hd d s) hc.points⟩

end Sg.Plane
