import Verif.Proof.QuadLineRounded
import Verif.Props.QuadLine
import Verif.Props.CollectRounding
/-
Property C114: the part of a segment in a quadrilateral in rounded arithmetic with a backward stable solver.  The model of the line
intersector is used at `Fl rnd`.
-/
namespace Sg.Props
open Sg Sg.LinearSolve Sg.Triangulate Sg.QuadIntersect Sg.QuadLine Sg.Spec Sg.Plane

variable {rnd : ℝ → ℝ} {g : Gels (Fl rnd)} {u β Δ L R : ℝ}

/-- A computed point of the segment. -/
theorem linePoint_near (hr : Rounds rnd u 0) (hu : u ≤ 1 / 100) {a b : Pt (Fl rnd)} (hlen : dist (valPt a) (valPt b) ≤ L)
    (ha : |(valPt a).1| ≤ R ∧ |(valPt a).2| ≤ R) {t : Fl rnd} (ht : |t.val| ≤ 11 / 10) :
    NearPt (linePointError u L R) (linePoint a b t) (valPt a + t.val • (valPt b - valPt a)) := by
  have hu0 := hr.rel
  have d := abs_sub_le_dist (valPt a) (valPt b)
  have hL : 0 ≤ L := dist_nonneg.trans hlen
  have key : ∀ {x d : ℝ}, |x| ≤ R → |d| ≤ L → |rnd (x + rnd (t.val * rnd d)) - (x + t.val * d)| ≤ linePointError u L R := by
    intro x d hx hd
    have e1 := rnd_near hr d
    have e2 := rnd_near hr (t.val * rnd d)
    have e3 := rnd_near hr (x + rnd (t.val * rnd d))
    have k1 : |rnd d - d| ≤ u * L := e1.trans (mul_le_mul_of_nonneg_left hd hu0)
    have k2 : |t.val * rnd d - t.val * d| ≤ 11 / 10 * (u * L) := by
      rw [← mul_sub, abs_mul]; exact mul_le_mul ht k1 (abs_nonneg _) (by norm_num)
    have uL : u * L ≤ 1 / 100 * L := mul_le_mul_of_nonneg_right hu hL
    have k3 : |t.val * d| ≤ 11 / 10 * L := by rw [abs_mul]; exact mul_le_mul ht hd (abs_nonneg _) (by norm_num)
    have k4 : |t.val * rnd d| ≤ 6 / 5 * L := by
      have := abs_add_le (t.val * rnd d - t.val * d) (t.val * d)
      rw [sub_add_cancel] at this
      linarith
    have k5 : |rnd (t.val * rnd d) - t.val * rnd d| ≤ u * (6 / 5 * L) := e2.trans (mul_le_mul_of_nonneg_left k4 hu0)
    have k6 : |rnd (t.val * rnd d)| ≤ 13 / 10 * L := by
      have := abs_add_le (rnd (t.val * rnd d) - t.val * rnd d) (t.val * rnd d)
      rw [sub_add_cancel] at this
      linarith
    have k7 : |x + rnd (t.val * rnd d)| ≤ R + 13 / 10 * L := (abs_add_le _ _).trans (by linarith)
    have k8 := e3.trans (mul_le_mul_of_nonneg_left k7 hu0)
    unfold linePointError
    have : 0 ≤ u * L := by positivity
    rw [abs_le] at *
    constructor <;> nlinarith [k2.1, k2.2, k5.1, k5.2, k8.1, k8.2]
  exact ⟨key ha.1 (d.1.trans hlen), key ha.2 (d.2.trans hlen)⟩

theorem sortsTo_fl {l l' : List (Fl rnd)} (h : SortsTo l l') : l'.Pairwise fun x y => x.val ≤ y.val :=
  h.2.imp fun h => not_lt.mp h

theorem flSorted_ends {l : List (Fl rnd)} (h : l.Pairwise fun x y => x.val ≤ y.val) {lo hi : Fl rnd} (hlo : l.head? = some lo)
    (hhi : l.getLast? = some hi) : lo ∈ l ∧ hi ∈ l ∧ ∀ t ∈ l, lo.val ≤ t.val ∧ t.val ≤ hi.val := by
  refine ⟨List.mem_of_head? hlo, List.mem_of_getLast? hhi, fun t ht => ⟨?_, ?_⟩⟩
  · cases l with
    | nil => cases hlo
    | cons x l =>
      simp only [List.head?_cons, Option.some.injEq] at hlo
      subst hlo
      rcases List.mem_cons.mp ht with rfl | ht
      · exact le_rfl
      · exact (List.pairwise_cons.mp h).1 t ht
  · obtain ⟨l', rfl⟩ := List.getLast?_eq_some_iff.mp hhi
    rcases List.mem_append.mp ht with h' | h'
    · exact (List.pairwise_append.mp h).2.2 t h' hi (by simp)
    · rw [List.mem_singleton] at h'; rw [h']

/-- What a call collects, in terms of the exact part inside. -/
theorem clip_list (hf : SolvesLine rnd g u β Δ) {q : Quad (Fl rnd)} {a b : Pt (Fl rnd)} (hl : FairLine Δ L (valQuad q) (valPt a) (valPt b))
    {l : List (Fl rnd)} (hs : SortsTo (collectedL g q a b) l) :
    (∀ t ∈ l, -(2 * lineTol) ≤ t.val ∧ t.val ≤ 1 + 2 * lineTol) ∧
    (∀ lo hi, IsLeast (insideParams (valQuad q) (valPt a) (valPt b)) lo → IsGreatest (insideParams (valQuad q) (valPt a) (valPt b)) hi →
      ∃ x y, l.head? = some x ∧ l.getLast? = some y ∧ |x.val - lo| ≤ clipError Δ ∧ |y.val - hi| ≤ clipError Δ) ∧
    (insideParams (valQuad q) (valPt a) (valPt b) = ∅ → ∀ x ∈ l, ∀ y ∈ l, |x.val - y.val| ≤ 2 * clipError Δ) := by
  obtain ⟨σ, hσ, hr⟩ := signed_region hl.convex
  have hΔ := hf.solves.shape
  have hce := clip_pos hΔ hf.shape
  have hlt := lineTol_pos
  have hnear := fun {x} (h : x ∈ l) => QuadLine.collected_near hf hl hσ hr (hs.1.mem_iff.mp h)
  refine ⟨fun t ht => (hnear ht).2, ?_, ?_⟩
  · intro lo hi hlo hhi
    obtain ⟨x0, m0, d0⟩ := ends_found hf hl (Or.inl hlo)
    obtain ⟨y0, m1, d1⟩ := ends_found hf hl (Or.inr hhi)
    have n0 := hs.1.mem_iff.mpr m0
    have n1 := hs.1.mem_iff.mpr m1
    have hne : l ≠ [] := List.ne_nil_of_mem n0
    have hx := List.head?_eq_some_head hne
    have hy := List.getLast?_eq_some_getLast hne
    obtain ⟨e0, e1, e2⟩ := flSorted_ends (sortsTo_fl hs) hx hy
    refine ⟨_, _, hx, hy, ?_, ?_⟩
    · have h1 := near_bounds hl hΔ hf.shape hσ hr (hnear e0).1 (hnear e0).2.1 (hnear e0).2.2 hlo hhi
      have h2 := (e2 x0 n0).1
      rw [abs_le] at d0 ⊢
      constructor <;> linarith [h1.1, d0.2]
    · have h1 := near_bounds hl hΔ hf.shape hσ hr (hnear e1).1 (hnear e1).2.1 (hnear e1).2.2 hlo hhi
      have h2 := (e2 y0 n1).2
      rw [abs_le] at d1 ⊢
      constructor <;> linarith [h1.2, d1.1]
  · intro hempty
    have key : ∀ x ∈ l, ∀ y ∈ l, x.val - y.val ≤ 2 * clipError Δ := by
      intro x hx y hy
      by_contra hcon
      push Not at hcon
      obtain ⟨nx, x0, x1⟩ := hnear hx
      obtain ⟨ny, y0, y1⟩ := hnear hy
      have := between_inside hl hΔ hf.shape hσ hr ny nx y0 y1 (r := y.val + clipError Δ) (by linarith) (by linarith) le_rfl (by linarith)
      rw [hempty] at this
      exact this
    intro x hx y hy
    rw [abs_le]
    constructor <;> linarith [key x hx y hy, key y hy x hx]

/-- **C114** For a convex quadrilateral that is not too flat and a segment that crosses none of its edges at a very small angle, with an
object without earlier parameters: the first and the last parameter returned are those of the part of the segment inside, up to
`clipError`; if no part is inside, then all parameters are within `2 * clipError` of each other.  The parameters are in increasing
order, and the points are those of the segment at the parameters, up to `linePointError`. -/
theorem C114_clip (hf : SolvesLine rnd g u β Δ) (srt : List (Fl rnd) → List (Fl rnd)) (hsrt : ∀ l, SortsTo l (srt l)) (s : Line (Fl rnd))
    (hs : LineReached g srt s) (hempty : s.lambdas = []) (q : Quad (Fl rnd)) (a b : Pt (Fl rnd))
    (hl : FairLine Δ L (valQuad q) (valPt a) (valPt b)) (ha : |(valPt a).1| ≤ R ∧ |(valPt a).2| ≤ R) :
    ∃ s' pts, ((s.setQuadPoints q).setLinePoints a b).collectIntersectPoints g srt = .ok (s', pts) ∧
      (s'.lambdas.Pairwise fun x y => x.val ≤ y.val) ∧
      (∀ lo hi, IsLeast (insideParams (valQuad q) (valPt a) (valPt b)) lo →
        IsGreatest (insideParams (valQuad q) (valPt a) (valPt b)) hi →
        ∃ x y, s'.lambdas.head? = some x ∧ s'.lambdas.getLast? = some y ∧ |x.val - lo| ≤ clipError Δ ∧ |y.val - hi| ≤ clipError Δ) ∧
      (insideParams (valQuad q) (valPt a) (valPt b) = ∅ → ∀ x ∈ s'.lambdas, ∀ y ∈ s'.lambdas, |x.val - y.val| ≤ 2 * clipError Δ) ∧
      List.Forall₂ (fun p t => NearPt (linePointError u L R) p (valPt a + t.val • (valPt b - valPt a))) pts s'.lambdas := by
  obtain ⟨hr, -⟩ := lineReached_ready hf.solves.stable.sizes hs (fun _ => True) (fun l x hx => (hsrt l).1.mem_iff.mp hx)
    (fun _ _ _ _ _ => trivial)
  obtain ⟨sl, -, e⟩ := collectL_ok g hf.solves.stable.sizes srt ((s.setQuadPoints q).setLinePoints a b) hr q _ a b _ rfl rfl
  rw [show ((s.setQuadPoints q).setLinePoints a b).lambdas = [] from hempty, List.nil_append] at e
  obtain ⟨h1, h2, h3⟩ := clip_list hf hl (hsrt (collectedL g q a b))
  refine ⟨_, _, e, sortsTo_fl (hsrt _), h2, h3, ?_⟩
  rw [List.forall₂_map_left_iff, List.forall₂_same]
  intro t ht
  refine linePoint_near hf.solves.rounds (hf.unit.trans (by norm_num)) hl.length ha ?_
  have := h1 t ht
  have hl1 : lineTol ≤ 1 / 1000 := by rw [lineTol_val]; norm_num
  rw [abs_le]
  constructor <;> linarith [this.1, this.2]

/-- **C114** If a part of the segment is inside, then at least one point is returned. -/
theorem C114_found (hf : SolvesLine rnd g u β Δ) (srt : List (Fl rnd) → List (Fl rnd)) (hsrt : ∀ l, SortsTo l (srt l)) (s : Line (Fl rnd))
    (hs : LineReached g srt s) (hempty : s.lambdas = []) (q : Quad (Fl rnd)) (a b : Pt (Fl rnd))
    (hl : FairLine Δ L (valQuad q) (valPt a) (valPt b)) (p : ℝ × ℝ) (h1 : p ∈ segment ℝ (valPt a) (valPt b))
    (h2 : p ∈ quadRegion (valQuad q)) :
    ∃ s' pts, ((s.setQuadPoints q).setLinePoints a b).collectIntersectPoints g srt = .ok (s', pts) ∧ pts ≠ [] := by
  obtain ⟨s', pts, e, -, hc, -, hp⟩ := C114_clip hf srt hsrt s hs hempty q a b hl
    (R := max |(valPt a).1| |(valPt a).2|) ⟨le_max_left _ _, le_max_right _ _⟩
  refine ⟨s', pts, e, ?_⟩
  rintro rfl
  rw [List.forall₂_nil_left_iff] at hp
  obtain ⟨t, t0, t1, rfl⟩ := mem_segment_iff.mp h1
  have hne : (insideParams (valQuad q) (valPt a) (valPt b)).Nonempty := ⟨t, t0, t1, h2⟩
  obtain ⟨lo, hlo⟩ := (inside_compact _ _ _).exists_isLeast hne
  obtain ⟨hi, hhi⟩ := (inside_compact _ _ _).exists_isGreatest hne
  obtain ⟨x, y, hx, -⟩ := hc lo hi hlo hhi
  rw [hp] at hx
  cases hx

/-! ### Double precision -/

/-- A solver that is backward stable with the constant 2^-52 is accurate enough. -/
theorem solvesLine_double {g : Gels (Fl (nearest 53))} (hg : GelsStable g (2 ^ (-(52 : ℤ)))) :
    SolvesLine (nearest 53) g (2 ^ (-(53 : ℤ))) (2 ^ (-(52 : ℤ))) (1 / 2) where
  solves := { rounds := nearest_rounds 53, consts := nearest53_consts, unit := by norm_num, pos := by norm_num, shape := by norm_num,
              small := by norm_num [solveError], stable := hg }
  unit := by norm_num
  shape := by norm_num
  small := by rw [lineTol_val]; norm_num [solveError]

/-- **C114** In double precision, with a solver that is backward stable with the constant 2^-52: the ends of the part inside are within
4e-13. -/
theorem C114_double (g : Gels (Fl (nearest 53))) (hg : GelsStable g (2 ^ (-(52 : ℤ)))) (srt : List (Fl (nearest 53)) → List (Fl (nearest 53)))
    (hsrt : ∀ l, SortsTo l (srt l)) (s : Line (Fl (nearest 53))) (hs : LineReached g srt s) (hempty : s.lambdas = [])
    (q : Quad (Fl (nearest 53))) (a b : Pt (Fl (nearest 53))) (hl : FairLine (1 / 2) L (valQuad q) (valPt a) (valPt b)) (lo hi : ℝ)
    (hlo : IsLeast (insideParams (valQuad q) (valPt a) (valPt b)) lo) (hhi : IsGreatest (insideParams (valQuad q) (valPt a) (valPt b)) hi) :
    ∃ s' pts x y, ((s.setQuadPoints q).setLinePoints a b).collectIntersectPoints g srt = .ok (s', pts) ∧
      s'.lambdas.head? = some x ∧ s'.lambdas.getLast? = some y ∧ |x.val - lo| ≤ 4 / 10 ^ 13 ∧ |y.val - hi| ≤ 4 / 10 ^ 13 := by
  obtain ⟨s', pts, e, -, hc, -⟩ := C114_clip (solvesLine_double hg) srt hsrt s hs hempty q a b hl
    (R := max |(valPt a).1| |(valPt a).2|) ⟨le_max_left _ _, le_max_right _ _⟩
  obtain ⟨x, y, hx, hy, d1, d2⟩ := hc lo hi hlo hhi
  have hce : clipError (1 / 2) ≤ 4 / 10 ^ 13 := by unfold clipError; rw [lineTol_val]; norm_num
  exact ⟨s', pts, x, y, e, hx, hy, d1.trans hce, d2.trans hce⟩

/-! ### Cases meeting the hypotheses -/

/-- Sorting parameters. -/
noncomputable def lamSort (l : List (Fl rnd)) : List (Fl rnd) := l.insertionSort (· ≤ ·)

theorem lamSort_ok (l : List (Fl rnd)) : SortsTo l (lamSort l) := by
  refine ⟨List.perm_insertionSort _ _, ?_⟩
  have : List.Pairwise (fun x y : Fl rnd => x ≤ y) (lamSort l) := by
    have : Std.Total fun x y : Fl rnd => x ≤ y := ⟨fun p q => le_total (α := ℝ) _ _⟩
    have : IsTrans (Fl rnd) fun x y : Fl rnd => x ≤ y := ⟨fun p q r => le_trans (α := ℝ)⟩
    exact List.pairwise_insertionSort _ _
  exact this.imp fun h => not_lt (α := ℝ).mpr h

/-- The square [0,2] x [0,2]. -/
def zSquare2 : Fin 4 → ℤ × ℤ := ![(0, 0), (2, 0), (2, 2), (0, 2)]

theorem one_two : (1 : Fin 4) + 1 = 2 := rfl
theorem two_three : (2 : Fin 4) + 1 = 3 := rfl
theorem three_zero : (3 : Fin 4) + 1 = 0 := rfl
theorem square2_0 : zquad zSquare2 0 = (0, 0) := by simp [zquad, zSquare2]
theorem square2_1 : zquad zSquare2 1 = (2, 0) := by simp [zquad, zSquare2]
theorem square2_2 : zquad zSquare2 2 = (2, 2) := by simp [zquad, zSquare2]
theorem square2_3 : zquad zSquare2 3 = (0, 2) := by simp [zquad, zSquare2]

theorem square2_fair {a b : ℝ × ℝ} (hlen : dist a b ≤ 2) (hab : a ≠ b)
    (he : ∀ i, 1 / 2 * 2 ^ 2 ≤ |turn (zquad zSquare2 i) (zquad zSquare2 (i + 1)) a b| ∨ WithinEdge (zquad zSquare2) i a b ∨
      BeyondEdge (12 * lineTol * 2 ^ 2) (zquad zSquare2) i a b) : FairLine (1 / 2) 2 (zquad zSquare2) a b where
  convex := zquad_convex (by decide)
  size i j := by
    rw [Prod.dist_eq, Real.dist_eq, Real.dist_eq, max_le_iff]
    fin_cases i <;> fin_cases j <;> norm_num [zquad, zSquare2]
  length := hlen
  proper := hab
  shaped := by constructor <;> right <;> norm_num [one_two, two_three, three_zero, area2, square2_0, square2_1, square2_2, square2_3]
  edges := he

/-- The segment from (1,1) to (3,2) leaves the square at the parameter 1/2. -/
example : ∃ s' pts x y, (((Line.new : Line (Fl (nearest 53))).setQuadPoints (flQuad zSquare2)).setLinePoints (⟨1⟩, ⟨1⟩)
      (⟨3⟩, ⟨2⟩)).collectIntersectPoints (nearGels (nearest 53)) lamSort = .ok (s', pts) ∧
      s'.lambdas.head? = some x ∧ s'.lambdas.getLast? = some y ∧ |x.val - 0| ≤ 4 / 10 ^ 13 ∧ |y.val - 1 / 2| ≤ 4 / 10 ^ 13 := by
  have hlen : dist ((1, 1) : ℝ × ℝ) (3, 2) ≤ 2 := by rw [Prod.dist_eq, Real.dist_eq, Real.dist_eq, max_le_iff]; norm_num
  have hd : ∀ i, zquad zSquare2 i ∈ quadRegion (zquad zSquare2) := fun i => mem_region _ i
  have hc : Convex ℝ (quadRegion (zquad zSquare2)) := convex_convexHull ℝ _
  have m0 : (0 : ℝ) ∈ insideParams (zquad zSquare2) (1, 1) (3, 2) := by
    refine ⟨le_rfl, zero_le_one, ?_⟩
    have := hc (hd 0) (hd 2) (a := 1 / 2) (b := 1 / 2) (by norm_num) (by norm_num) (by norm_num)
    convert this using 1
    ext <;> simp [zquad, zSquare2]
  have m1 : (1 / 2 : ℝ) ∈ insideParams (zquad zSquare2) (1, 1) (3, 2) := by
    refine ⟨by norm_num, by norm_num, ?_⟩
    have := hc (hd 1) (hd 2) (a := 1 / 4) (b := 3 / 4) (by norm_num) (by norm_num) (by norm_num)
    convert this using 1
    ext <;> simp [zquad, zSquare2] <;> norm_num
  refine C114_double (nearGels (nearest 53)) nearGels_double lamSort lamSort_ok Line.new (lineReached_new _ _) rfl (flQuad zSquare2) (⟨1⟩, ⟨1⟩) (⟨3⟩, ⟨2⟩)
    (square2_fair (a := (1, 1)) (b := (3, 2)) hlen (by simp) ?_) 0 (1 / 2) ⟨m0, fun t ht => ht.1⟩ ⟨m1, fun t ht => ?_⟩
  · intro i
    left
    match i with
    | 0 | 1 | 2 | 3 => norm_num [one_two, two_three, three_zero, turn, square2_0, square2_1, square2_2, square2_3, valPt]
  · obtain ⟨⟨-, j, hj⟩, -⟩ := hull_between ht.2.2
    have hj' : 1 + t * (3 - 1) ≤ (zquad zSquare2 j).1 := hj
    have : (zquad zSquare2 j).1 ≤ 2 := by fin_cases j <;> norm_num [zquad, zSquare2]
    linarith

/-- A segment along an edge meets the hypotheses. -/
example : FairLine (1 / 2) 2 (zquad zSquare2) (0, 0) (1, 0) := by
  refine square2_fair (by rw [Prod.dist_eq, Real.dist_eq, Real.dist_eq, max_le_iff]; norm_num) (by simp) fun i => ?_
  match i with
  | 0 => exact Or.inr (Or.inl (Or.inl ⟨fun j => by match j with | 0 | 1 | 2 | 3 => norm_num [one_two, two_three, three_zero, area2, square2_0, square2_1, square2_2, square2_3], by norm_num [one_two, two_three, three_zero, area2, square2_0, square2_1, square2_2, square2_3],
      by norm_num [one_two, two_three, three_zero, area2, square2_0, square2_1, square2_2, square2_3]⟩))
  | 1 => left; norm_num [one_two, two_three, three_zero, turn, square2_0, square2_1, square2_2, square2_3]
  | 2 => exact Or.inr (Or.inl (Or.inl ⟨fun j => by match j with | 0 | 1 | 2 | 3 => norm_num [one_two, two_three, three_zero, area2, square2_0, square2_1, square2_2, square2_3], by norm_num [one_two, two_three, three_zero, area2, square2_0, square2_1, square2_2, square2_3],
      by norm_num [one_two, two_three, three_zero, area2, square2_0, square2_1, square2_2, square2_3]⟩))
  | 3 => left; norm_num [one_two, two_three, three_zero, turn, square2_0, square2_1, square2_2, square2_3]

/-- A segment clearly beyond an edge and parallel to it meets the hypotheses. -/
example : FairLine (1 / 2) 2 (zquad zSquare2) (0, 3) (1, 3) := by
  refine square2_fair (by rw [Prod.dist_eq, Real.dist_eq, Real.dist_eq, max_le_iff]; norm_num) (by simp) fun i => ?_
  match i with
  | 0 => exact Or.inr (Or.inl (Or.inl ⟨fun j => by match j with | 0 | 1 | 2 | 3 => norm_num [one_two, two_three, three_zero, area2, square2_0, square2_1, square2_2, square2_3], by norm_num [one_two, two_three, three_zero, area2, square2_0, square2_1, square2_2, square2_3],
      by norm_num [one_two, two_three, three_zero, area2, square2_0, square2_1, square2_2, square2_3]⟩))
  | 1 => left; norm_num [one_two, two_three, three_zero, turn, square2_0, square2_1, square2_2, square2_3]
  | 2 =>
    refine Or.inr (Or.inr (Or.inl ⟨fun j => by match j with | 0 | 1 | 2 | 3 => norm_num [one_two, two_three, three_zero, area2, square2_0, square2_1, square2_2, square2_3], ?_, ?_⟩)) <;> rw [lineTol_val] <;>
      norm_num [one_two, two_three, three_zero, area2, square2_0, square2_1, square2_2, square2_3]
  | 3 => left; norm_num [one_two, two_three, three_zero, turn, square2_0, square2_1, square2_2, square2_3]

end Sg.Props
