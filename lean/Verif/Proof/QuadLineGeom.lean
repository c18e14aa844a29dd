import Verif.Spec.Line
import Verif.Proof.QuadGeom
/-
A segment and a convex quadrilateral: where the segment leaves the quadrilateral it is on an edge it is not parallel to.
-/
namespace Sg.Plane
open Sg Sg.Triangulate Sg.Spec

theorem region_iff_ccw {q : Fin 4 → P2} (h : Ccw q) {x : P2} : x ∈ quadRegion q ↔ ∀ i, 0 ≤ cross (q i) (q (i + 1)) x := by
  constructor
  · exact region_left h
  · intro hx
    rcases region_tris_ccw h hx with ⟨-, hy⟩ | ⟨-, hy⟩
    · exact tri_sub_region _ _ _ _ hy
    · exact tri_sub_region _ _ _ _ hy

theorem cross_move (a b p d : P2) (e : ℝ) :
    cross a b (p + e • d) = cross a b p + e * ((b.1 - a.1) * d.2 - (b.2 - a.2) * d.1) := by
  simp only [cross, Prod.fst_add, Prod.snd_add, Prod.smul_fst, Prod.smul_snd, smul_eq_mul]
  ring

theorem leave_ccw {q : Fin 4 → P2} (h : Ccw q) {p d : P2} (hp : p ∈ quadRegion q)
    (hout : ∀ e : ℝ, 0 < e → p + e • d ∉ quadRegion q) :
    ∃ i, p ∈ segment ℝ (q i) (q (i + 1)) ∧
      ((q (i + 1)).1 - (q i).1) * d.2 - ((q (i + 1)).2 - (q i).2) * d.1 ≠ 0 := by
  by_contra hcon
  push Not at hcon
  have key : ∀ i, ∃ e : ℝ, 0 < e ∧ ∀ e', 0 < e' → e' ≤ e → 0 ≤ cross (q i) (q (i + 1)) (p + e' • d) := by
    intro i
    have h0 := region_left h hp i
    rcases h0.lt_or_eq with hpos | hz
    · set c := cross (q i) (q (i + 1)) p
      set k := ((q (i + 1)).1 - (q i).1) * d.2 - ((q (i + 1)).2 - (q i).2) * d.1 with hk
      have hden : 0 < |k| + 1 := by positivity
      refine ⟨c / (|k| + 1), by positivity, fun e' he0 he => ?_⟩
      rw [cross_move, ← hk]
      have h1 : e' * (|k| + 1) ≤ c := (le_div_iff₀ hden).mp he
      have h2 : -(e' * |k|) ≤ e' * k := by
        have := mul_le_mul_of_nonneg_left (neg_abs_le k) he0.le
        linarith
      nlinarith
    · have hk : ((q (i + 1)).1 - (q i).1) * d.2 - ((q (i + 1)).2 - (q i).2) * d.1 = 0 := by
        by_cases hne : q i = q (i + 1)
        · rw [hne]; ring
        · obtain ⟨j, c, hj, hc⟩ := on_edge_ccw h hp hne hz.symm
          have h1 : (q (i + 1)).1 - (q i).1 = c * ((q (j + 1)).1 - (q j).1) := congrArg Prod.fst hc
          have h2 : (q (i + 1)).2 - (q i).2 = c * ((q (j + 1)).2 - (q j).2) := congrArg Prod.snd hc
          rw [h1, h2]
          linear_combination c * hcon j hj
      refine ⟨1, one_pos, fun e' _ _ => ?_⟩
      rw [cross_move, hk, ← hz]; simp
  choose e he hh using key
  set m := min (min (e 0) (e 1)) (min (e 2) (e 3)) with hm
  have hmp : 0 < m := by simp only [hm, lt_min_iff]; exact ⟨⟨he 0, he 1⟩, he 2, he 3⟩
  refine hout m hmp ((region_iff_ccw h).mpr ?_)
  have hle : ∀ i, m ≤ e i := by
    rw [fin4]
    exact ⟨(min_le_left _ _).trans (min_le_left _ _), (min_le_left _ _).trans (min_le_right _ _),
      (min_le_right _ _).trans (min_le_left _ _), (min_le_right _ _).trans (min_le_right _ _)⟩
  intro i
  exact hh i m hmp (hle i)

/-- Where a line leaves a convex quadrilateral it is on an edge it is not parallel to. -/
theorem leave {q : Fin 4 → P2} (h : ConvexQuad q) {p d : P2} (hp : p ∈ quadRegion q)
    (hout : ∀ e : ℝ, 0 < e → p + e • d ∉ quadRegion q) :
    ∃ i, p ∈ segment ℝ (q i) (q (i + 1)) ∧
      ((q (i + 1)).1 - (q i).1) * d.2 - ((q (i + 1)).2 - (q i).2) * d.1 ≠ 0 := by
  rcases ccw_or_rev h with h | h
  · exact leave_ccw h hp hout
  · rw [← region_rev] at hp hout
    obtain ⟨i, hi, hk⟩ := leave_ccw h hp hout
    refine ⟨-(i + 1), ?_, ?_⟩
    · have e : -(i + 1) + 1 = -i := (by decide : ∀ i : Fin 4, -(i + 1) + 1 = -i) i
      rw [e, segment_symm]
      exact hi
    · have e : -(i + 1) + 1 = -i := (by decide : ∀ i : Fin 4, -(i + 1) + 1 = -i) i
      rw [e]
      intro h0
      apply hk
      show ((q (-(i + 1))).1 - (q (-i)).1) * d.2 - ((q (-(i + 1))).2 - (q (-i)).2) * d.1 = 0
      linarith

/-! ### The part of a segment inside -/

theorem inside_convex (q : Fin 4 → P2) (a b : P2) : Convex ℝ (insideParams q a b) := by
  intro s hs t ht u v hu hv huv
  obtain ⟨s0, s1, hs⟩ := hs
  obtain ⟨t0, t1, ht⟩ := ht
  refine ⟨?_, ?_, ?_⟩
  · simp only [smul_eq_mul]; positivity
  · simp only [smul_eq_mul]; nlinarith
  · have := (convex_convexHull ℝ (Set.range q)) hs ht hu hv huv
    have e : a + (u • s + v • t) • (b - a) = u • (a + s • (b - a)) + v • (a + t • (b - a)) := by
      obtain rfl : v = 1 - u := by linarith
      ext <;> simp <;> ring
    rw [e]; exact this

theorem inside_compact (q : Fin 4 → P2) (a b : P2) : IsCompact (insideParams q a b) := by
  have e : insideParams q a b = Set.Icc 0 1 ∩ (fun t : ℝ => a + t • (b - a)) ⁻¹' quadRegion q := by
    ext t; simp [insideParams, and_assoc]
  rw [e]
  refine isCompact_Icc.inter_right (IsClosed.preimage (by fun_prop) (isCompact_region q).isClosed)

theorem inside_eq_Icc {q : Fin 4 → P2} {a b : P2} {lo hi : ℝ} (hlo : IsLeast (insideParams q a b) lo)
    (hhi : IsGreatest (insideParams q a b) hi) : insideParams q a b = Set.Icc lo hi := by
  ext t
  constructor
  · intro ht; exact ⟨hlo.2 ht, hhi.2 ht⟩
  · intro ht
    exact (inside_convex q a b).ordConnected.out hlo.1 hhi.1 ht

/-- The last parameter inside is the end of the segment or on an edge that is not parallel to it. -/
theorem greatest_edge {q : Fin 4 → P2} (h : ConvexQuad q) {a b : P2} {t : ℝ} (ht : IsGreatest (insideParams q a b) t) :
    t = 1 ∨ ∃ i, a + t • (b - a) ∈ segment ℝ (q i) (q (i + 1)) ∧
      ((q (i + 1)).1 - (q i).1) * (b.2 - a.2) - ((q (i + 1)).2 - (q i).2) * (b.1 - a.1) ≠ 0 := by
  obtain ⟨⟨h0, h1, hr⟩, hmax⟩ := ht
  rcases h1.lt_or_eq with h1 | h1
  · right
    obtain ⟨i, hi, hk⟩ := leave (d := b - a) h hr (by
      intro e he hin
      -- a point a little further is inside, by convexity
      set m := min e (1 - t) with hm
      have hm0 : 0 < m := lt_min he (by linarith)
      have hme : m ≤ e := min_le_left _ _
      have hm1 : m ≤ 1 - t := min_le_right _ _
      have hmem : a + (t + m) • (b - a) ∈ quadRegion q := by
        have := (convex_convexHull ℝ (Set.range q)) hr hin (a := 1 - m / e) (b := m / e)
          (by rw [sub_nonneg, div_le_one he]; exact hme) (by positivity) (by ring)
        have e' : a + (t + m) • (b - a) = (1 - m / e) • (a + t • (b - a)) + (m / e) • (a + t • (b - a) + e • (b - a)) := by
          have : m / e * e = m := div_mul_cancel₀ m he.ne'
          generalize m / e = r at this
          rw [← this]
          ext <;> simp <;> ring
        rw [e']; exact this
      have := hmax (show t + m ∈ insideParams q a b from ⟨by linarith, by linarith, hmem⟩)
      linarith)
    exact ⟨i, hi, hk⟩
  · exact Or.inl h1

theorem inside_swap (q : Fin 4 → P2) (a b : P2) (t : ℝ) : t ∈ insideParams q a b ↔ 1 - t ∈ insideParams q b a := by
  have e : b + (1 - t) • (a - b) = a + t • (b - a) := by ext <;> simp <;> ring
  simp only [insideParams, Set.mem_ofPred_eq, e]
  constructor
  · rintro ⟨h1, h2, h3⟩; exact ⟨by linarith, by linarith, h3⟩
  · rintro ⟨h1, h2, h3⟩; exact ⟨by linarith, by linarith, h3⟩

/-- The first parameter inside is the start of the segment or on an edge that is not parallel to it. -/
theorem least_edge {q : Fin 4 → P2} (h : ConvexQuad q) {a b : P2} {t : ℝ} (ht : IsLeast (insideParams q a b) t) :
    t = 0 ∨ ∃ i, a + t • (b - a) ∈ segment ℝ (q i) (q (i + 1)) ∧
      ((q (i + 1)).1 - (q i).1) * (b.2 - a.2) - ((q (i + 1)).2 - (q i).2) * (b.1 - a.1) ≠ 0 := by
  have hg : IsGreatest (insideParams q b a) (1 - t) := by
    refine ⟨(inside_swap q a b t).mp ht.1, fun s hs => ?_⟩
    have := ht.2 ((inside_swap q a b (1 - s)).mpr (by simpa using hs))
    linarith
  rcases greatest_edge h hg with h0 | ⟨i, hi, hk⟩
  · left; linarith
  · right
    have e : b + (1 - t) • (a - b) = a + t • (b - a) := by ext <;> simp <;> ring
    rw [e] at hi
    refine ⟨i, hi, fun h0 => hk ?_⟩
    linarith

end Sg.Plane
