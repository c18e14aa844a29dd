import Verif.Props.ConserveTotals
import Verif.Props.ConserveState
import Mathlib.Analysis.Convex.Topology
import Mathlib.Analysis.Convex.Combination
/- Cells with small integer nodes meet the conditions on tolerances; rectangles. -/
namespace Sg.Props
open Sg.LinearSolve Sg.Triangulate Sg.QuadIntersect Sg.Conserve Sg.Spec Sg.Plane MeasureTheory

/-- A point whose coordinates have a common denominator of at most 800. -/
def IsFrac (p : P2) : Prop := ∃ X Y D : ℤ, 1 ≤ D ∧ D ≤ 800 ∧ p.1 * D = X ∧ p.2 * D = Y

theorem isFrac_int (z : ℤ × ℤ) : IsFrac ((z.1 : ℝ), (z.2 : ℝ)) := ⟨z.1, z.2, 1, by norm_num, by norm_num, by simp, by simp⟩

theorem one_le_abs_int {x : ℝ} {n : ℤ} (h : x = n) (hx : x ≠ 0) : 1 ≤ |x| := by
  have hn : n ≠ 0 := fun h0 => hx (by rw [h, h0, Int.cast_zero])
  rw [h]
  exact_mod_cast Int.one_le_abs hn

theorem tolClean_frac {P : Set P2} (h : ∀ p ∈ P, IsFrac p) : TolClean P := by
  constructor
  · intro p hp q hq hne
    obtain ⟨X, Y, D, h1, h2, hx, hy⟩ := h p hp
    obtain ⟨X', Y', D', h1', h2', hx', hy'⟩ := h q hq
    have b1 : (1 : ℝ) ≤ D := by exact_mod_cast h1
    have b2 : (D : ℝ) ≤ 800 := by exact_mod_cast h2
    have b1' : (1 : ℝ) ≤ D' := by exact_mod_cast h1'
    have b2' : (D' : ℝ) ≤ 800 := by exact_mod_cast h2'
    have hDD : (D : ℝ) * D' ≤ 640000 := by nlinarith
    have hpos : (0 : ℝ) < D * D' := by positivity
    have key : ∀ t : ℝ, t ≠ 0 → (∃ n : ℤ, t * (D * D') = n) → (1 / 1000000000000 : ℝ) < t ^ 2 := by
      rintro t ht ⟨n, hn⟩
      have := one_le_abs_int hn (mul_ne_zero ht hpos.ne')
      rw [abs_mul, abs_of_pos hpos] at this
      have h3 : 1 ≤ |t| * 640000 := this.trans (mul_le_mul_of_nonneg_left hDD (abs_nonneg t))
      have h4 : (1 / 640000 : ℝ) ≤ |t| := by linarith
      have h5 : (1 / 640000 : ℝ) ^ 2 ≤ |t| ^ 2 := by gcongr
      rw [sq_abs] at h5
      refine lt_of_lt_of_le ?_ h5
      norm_num
    by_cases e1 : q.1 - p.1 = 0
    · have e2 : q.2 - p.2 ≠ 0 := by
        intro e2
        exact hne (Prod.ext (by linarith) (by linarith))
      have := key _ e2 ⟨Y' * D - Y * D', by push_cast; rw [← hy, ← hy']; ring⟩
      nlinarith [sq_nonneg (q.1 - p.1)]
    · have := key _ e1 ⟨X' * D - X * D', by push_cast; rw [← hx, ← hx']; ring⟩
      nlinarith [sq_nonneg (q.2 - p.2)]
  · intro p hp q hq r hr
    obtain ⟨X, Y, D, h1, h2, hx, hy⟩ := h p hp
    obtain ⟨X', Y', D', h1', h2', hx', hy'⟩ := h q hq
    obtain ⟨X'', Y'', D'', h1'', h2'', hx'', hy''⟩ := h r hr
    by_cases h0 : area2 p q r = 0
    · exact Or.inl h0
    · right
      have b1 : (1 : ℝ) ≤ D := by exact_mod_cast h1
      have b2 : (D : ℝ) ≤ 800 := by exact_mod_cast h2
      have b1' : (1 : ℝ) ≤ D' := by exact_mod_cast h1'
      have b2' : (D' : ℝ) ≤ 800 := by exact_mod_cast h2'
      have b1'' : (1 : ℝ) ≤ D'' := by exact_mod_cast h1''
      have b2'' : (D'' : ℝ) ≤ 800 := by exact_mod_cast h2''
      have hDD : (D : ℝ) * D' ≤ 640000 := by nlinarith
      have hpos' : (0 : ℝ) < D * D' := by positivity
      have hDDD : (D : ℝ) * D' * D'' ≤ 512000000 := by nlinarith
      have hpos : (0 : ℝ) < D * D' * D'' := by positivity
      have hn : area2 p q r * (D * D' * D'') = ((X' * Y'' * D - X' * Y * D'' - X * Y'' * D' - (Y' * X'' * D - Y' * X * D'' -
          Y * X'' * D') : ℤ) : ℝ) := by
        push_cast
        rw [← hx, ← hx', ← hx'', ← hy, ← hy', ← hy'', area2]
        ring
      have := one_le_abs_int hn (mul_ne_zero h0 hpos.ne')
      rw [abs_mul, abs_of_pos hpos] at this
      have h3 : 1 ≤ |area2 p q r| * 512000000 := this.trans (mul_le_mul_of_nonneg_left hDDD (abs_nonneg _))
      have h4 : (1 / 512000000 : ℝ) ≤ |area2 p q r| := by linarith
      refine lt_of_lt_of_le ?_ h4
      norm_num

/-- Coordinates between 0 and 20. -/
abbrev ZTiny (z : Fin 4 → ℤ × ℤ) : Prop := ∀ i, 0 ≤ (z i).1 ∧ (z i).1 ≤ 20 ∧ 0 ≤ (z i).2 ∧ (z i).2 ≤ 20

theorem isFrac_crossing {z1 z2 : Fin 4 → ℤ × ℤ} (s1 : ZTiny z1) (s2 : ZTiny z2) {i j : Fin 4} {p : P2}
    (hdet : (zquad z1 (i + 1) - zquad z1 i).1 * (zquad z2 (j + 1) - zquad z2 j).2 -
      (zquad z1 (i + 1) - zquad z1 i).2 * (zquad z2 (j + 1) - zquad z2 j).1 ≠ 0)
    (h1 : p ∈ openSegment ℝ (zquad z1 i) (zquad z1 (i + 1))) (h2 : p ∈ openSegment ℝ (zquad z2 j) (zquad z2 (j + 1))) :
    IsFrac p := by
  rw [openSegment_eq_image'] at h1 h2
  obtain ⟨s, -, rfl⟩ := h1
  obtain ⟨t, -, heq⟩ := h2
  have hx : ((z2 j).1 : ℝ) + t * ((z2 (j + 1)).1 - (z2 j).1) = (z1 i).1 + s * ((z1 (i + 1)).1 - (z1 i).1) :=
    congrArg Prod.fst heq
  have hy : ((z2 j).2 : ℝ) + t * ((z2 (j + 1)).2 - (z2 j).2) = (z1 i).2 + s * ((z1 (i + 1)).2 - (z1 i).2) :=
    congrArg Prod.snd heq
  set m : ℤ := ((z1 (i + 1)).1 - (z1 i).1) * ((z2 (j + 1)).2 - (z2 j).2) -
      ((z1 (i + 1)).2 - (z1 i).2) * ((z2 (j + 1)).1 - (z2 j).1) with hmdef
  set k : ℤ := ((z2 j).1 - (z1 i).1) * ((z2 (j + 1)).2 - (z2 j).2) -
      ((z2 j).2 - (z1 i).2) * ((z2 (j + 1)).1 - (z2 j).1) with hkdef
  have hm : m ≠ 0 := by
    intro h0
    apply hdet
    have : (m : ℝ) = 0 := by exact_mod_cast h0
    rw [hmdef] at this
    push_cast at this
    exact this
  have hs : s * m = k := by
    rw [hmdef, hkdef]; push_cast
    linear_combination (-((z2 (j + 1)).2 - (z2 j).2) : ℝ) * hx + ((z2 (j + 1)).1 - (z2 j).1 : ℝ) * hy
  have hmb : |m| ≤ 800 := by
    have a1 := s1 i; have a2 := s1 (i + 1); have a3 := s2 j; have a4 := s2 (j + 1)
    have hmul : ∀ u v : ℤ, |u| ≤ 20 → |v| ≤ 20 → |u * v| ≤ 400 := by
      intro u v hu hv
      rw [abs_mul]
      exact (mul_le_mul hu hv (abs_nonneg _) (by norm_num)).trans (by norm_num)
    have e1 := hmul ((z1 (i + 1)).1 - (z1 i).1) ((z2 (j + 1)).2 - (z2 j).2) (by rw [abs_le]; omega) (by rw [abs_le]; omega)
    have e2 := hmul ((z1 (i + 1)).2 - (z1 i).2) ((z2 (j + 1)).1 - (z2 j).1) (by rw [abs_le]; omega) (by rw [abs_le]; omega)
    rw [hmdef]
    rw [abs_le] at e1 e2 ⊢
    omega
  rcases lt_or_gt_of_ne hm with hneg | hpos
  · refine ⟨(z1 i).1 * (-m) - k * ((z1 (i + 1)).1 - (z1 i).1), (z1 i).2 * (-m) - k * ((z1 (i + 1)).2 - (z1 i).2), -m,
      by omega, by rw [abs_le] at hmb; omega, ?_, ?_⟩
    · show ((z1 i).1 + s * ((z1 (i + 1)).1 - (z1 i).1) : ℝ) * _ = _
      push_cast
      linear_combination (-((z1 (i + 1)).1 - (z1 i).1) : ℝ) * hs
    · show ((z1 i).2 + s * ((z1 (i + 1)).2 - (z1 i).2) : ℝ) * _ = _
      push_cast
      linear_combination (-((z1 (i + 1)).2 - (z1 i).2) : ℝ) * hs
  · refine ⟨(z1 i).1 * m + k * ((z1 (i + 1)).1 - (z1 i).1), (z1 i).2 * m + k * ((z1 (i + 1)).2 - (z1 i).2), m,
      by omega, by rw [abs_le] at hmb; omega, ?_, ?_⟩
    · show ((z1 i).1 + s * ((z1 (i + 1)).1 - (z1 i).1) : ℝ) * _ = _
      push_cast
      linear_combination ((z1 (i + 1)).1 - (z1 i).1 : ℝ) * hs
    · show ((z1 i).2 + s * ((z1 (i + 1)).2 - (z1 i).2) : ℝ) * _ = _
      push_cast
      linear_combination ((z1 (i + 1)).2 - (z1 i).2 : ℝ) * hs

/-- Convex cells with integer nodes between 0 and 20 meet all the conditions on tolerances. -/
theorem cleanCells_int {z1 z2 : Fin 4 → ℤ × ℤ} (c1 : ZConvex z1) (c2 : ZConvex z2) (s1 : ZTiny z1) (s2 : ZTiny z2) :
    CleanCells (zquad z1) (zquad z2) := by
  refine ⟨zquad_convex c1, zquad_convex c2, clearPair_int c1 c2 (fun i => ?_) (fun i => ?_), tolClean_frac ?_, tolClean_frac ?_⟩
  · have := s1 i; omega
  · have := s2 i; omega
  · rintro _ ⟨i, rfl⟩
    exact isFrac_int (z1 i)
  · rintro p (⟨i, rfl, -⟩ | ⟨i, rfl, -⟩ | ⟨i, j, hdet, h1, h2⟩)
    · exact isFrac_int (z1 i)
    · exact isFrac_int (z2 i)
    · exact isFrac_crossing s1 s2 hdet h1 h2

/-! ### Rectangles -/

theorem box_region {a b c d : ℝ} (hab : a ≤ b) (hcd : c ≤ d) {q : Fin 4 → ℝ × ℝ} (h0 : q 0 = (a, c)) (h1 : q 1 = (b, c))
    (h2 : q 2 = (b, d)) (h3 : q 3 = (a, d)) : quadRegion q = Set.Icc a b ×ˢ Set.Icc c d := by
  have : Set.range q = ({a, b} : Set ℝ) ×ˢ ({c, d} : Set ℝ) := by
    ext ⟨x, y⟩
    simp only [Set.mem_range, Fin.exists_fin_succ, IsEmpty.exists_iff, Set.mem_prod, Set.mem_insert_iff,
      Set.mem_singleton_iff]
    rw [show (Fin.succ 0 : Fin 4) = 1 from rfl, show (Fin.succ (Fin.succ 0) : Fin 4) = 2 from rfl,
      show (Fin.succ (Fin.succ (Fin.succ 0)) : Fin 4) = 3 from rfl, h0, h1, h2, h3]
    simp only [Prod.mk.injEq]
    constructor
    · rintro (⟨rfl, rfl⟩ | ⟨rfl, rfl⟩ | ⟨rfl, rfl⟩ | ⟨rfl, rfl⟩ | h)
      · simp
      · simp
      · simp
      · simp
      · exact h.elim
    · rintro ⟨rfl | rfl, rfl | rfl⟩ <;> simp
  rw [quadRegion, this, convexHull_prod, convexHull_pair, convexHull_pair, segment_eq_Icc hab, segment_eq_Icc hcd]

theorem area_box {a b c d : ℝ} (hab : a ≤ b) (hcd : c ≤ d) : area (Set.Icc a b ×ˢ Set.Icc c d) = (b - a) * (d - c) := by
  rw [area, Measure.volume_eq_prod, Measure.prod_prod, Real.volume_Icc, Real.volume_Icc, ENNReal.toReal_mul,
    ENNReal.toReal_ofReal (by linarith), ENNReal.toReal_ofReal (by linarith)]

end Sg.Props
