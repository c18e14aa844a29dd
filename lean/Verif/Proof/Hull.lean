import Verif.Proof.PlaneArea
import Mathlib.Analysis.LocallyConvex.Separation
import Mathlib.Analysis.Normed.Module.Convex
/-
Growing a convex hull by one point: the geometry behind `addPoint`.
-/
namespace Sg.Plane
open MeasureTheory Sg.Triangulate

/-- The directed edges `E` describe the hull of `S`. -/
structure HullInv (S : Set P2) (E : Set (P2 × P2)) : Prop where
  left : ∀ e ∈ E, ∀ s ∈ S, 0 ≤ cross e.1 e.2 s
  strict : ∀ e ∈ E, ∃ s ∈ S, 0 < cross e.1 e.2 s
  mem : ∀ e ∈ E, e.1 ∈ S ∧ e.2 ∈ S
  pred : ∀ e ∈ E, ∃ z, (z, e.1) ∈ E
  succ : ∀ e ∈ E, ∃ c, (e.2, c) ∈ E
  hull : ∀ x, (∀ e ∈ E, 0 ≤ cross e.1 e.2 x) → x ∈ convexHull ℝ S

/-- A line through `v` has all of `P` on one side. -/
def Supported (P : Set P2) (v : P2) : Prop :=
  ∃ g : P2, g ≠ 0 ∧ ∀ x ∈ P, g.1 * (x.1 - v.1) + g.2 * (x.2 - v.2) ≤ 0

theorem HullInv.hull_left {S : Set P2} {E : Set (P2 × P2)} (h : HullInv S E) {e : P2 × P2} (he : e ∈ E) {x : P2}
    (hx : x ∈ convexHull ℝ S) : 0 ≤ cross e.1 e.2 x :=
  convexHull_min (h.left e he) (convex_halfplane e.1 e.2) hx

theorem HullInv.ne {S : Set P2} {E : Set (P2 × P2)} (h : HullInv S E) {e : P2 × P2} (he : e ∈ E) : e.1 ≠ e.2 := by
  intro h0
  obtain ⟨s, _, hs⟩ := h.strict e he
  rw [h0, cross_aa] at hs
  exact lt_irrefl _ hs

/-- The four term identity among cross products of vectors, in the form used below. -/
theorem pluecker (z a b p s : P2) :
    cross z a b * cross a p s = cross z a p * cross a b s - cross z a s * cross a b p := by
  simp only [cross]; ring

theorem tangent_left {S : Set P2} {E : Set (P2 × P2)} (h : HullInv S E) {z a b p : P2} (hz : (z, a) ∈ E) (he : (a, b) ∈ E)
    (hp : 0 ≤ cross z a p) (hv : cross a b p < 0) {s : P2} (hs : s ∈ convexHull ℝ S) : 0 ≤ cross a p s := by
  have h1 := h.hull_left hz hs
  have h2 := h.hull_left he hs
  have h3 := h.left _ hz b (h.mem _ he).2
  dsimp only at h1 h2 h3
  have hpl := pluecker z a b p s
  rcases h3.lt_or_eq with h3 | h3
  · have : 0 ≤ cross z a b * cross a p s := by
      rw [hpl]; nlinarith
    exact nonneg_of_mul_nonneg_right this h3
  · exfalso
    obtain ⟨s0, hs0, h4⟩ := h.strict _ he
    have h5 := h.left _ hz s0 hs0
    dsimp only at h4 h5
    have hpl0 := pluecker z a b p s0
    rw [← h3, zero_mul] at hpl0
    have h6 : cross z a p * cross a b s0 = 0 ∧ cross z a s0 * cross a b p = 0 := by
      have : 0 ≤ cross z a p * cross a b s0 := by positivity
      have : cross z a s0 * cross a b p ≤ 0 := mul_nonpos_of_nonneg_of_nonpos h5 hv.le
      constructor <;> linarith
    have h7 : cross z a p = 0 := by
      rcases mul_eq_zero.mp h6.1 with h | h
      · exact h
      · exact absurd h h4.ne'
    have h8 : cross z a s0 = 0 := by
      rcases mul_eq_zero.mp h6.2 with h | h
      · exact h
      · exact absurd h hv.ne
    -- b, p, s0 all on the line z a, so that a b p are on a line
    have hne := h.ne hz
    dsimp only at hne
    have hid : (a.1 - z.1) * cross a b p = (b.1 - a.1) * cross z a p - (p.1 - a.1) * cross z a b := by
      simp only [cross]; ring
    have hid2 : (a.2 - z.2) * cross a b p = (b.2 - a.2) * cross z a p - (p.2 - a.2) * cross z a b := by
      simp only [cross]; ring
    rw [← h3, h7] at hid hid2
    simp only [mul_zero, sub_zero] at hid hid2
    apply hne
    have e1 : a.1 - z.1 = 0 := by
      rcases mul_eq_zero.mp hid with h | h
      · exact h
      · exact absurd h hv.ne
    have e2 : a.2 - z.2 = 0 := by
      rcases mul_eq_zero.mp hid2 with h | h
      · exact h
      · exact absurd h hv.ne
    ext <;> linarith

theorem tangent_right {S : Set P2} {E : Set (P2 × P2)} (h : HullInv S E) {a b c p : P2} (he : (a, b) ∈ E)
    (hc : (b, c) ∈ E) (hp : 0 ≤ cross b c p) (hv : cross a b p < 0) {s : P2} (hs : s ∈ convexHull ℝ S) :
    0 ≤ cross p b s := by
  have h1 := h.hull_left hc hs
  have h2 := h.hull_left he hs
  have h3 := h.left _ hc a (h.mem _ he).1
  dsimp only at h1 h2 h3
  have hpl : ∀ s, cross b c a * cross p b s = cross b c p * cross a b s - cross b c s * cross a b p := by
    intro s; simp only [cross]; ring
  rcases h3.lt_or_eq with h3 | h3
  · have : 0 ≤ cross b c a * cross p b s := by
      rw [hpl]; nlinarith
    exact nonneg_of_mul_nonneg_right this h3
  · exfalso
    obtain ⟨s0, hs0, h4⟩ := h.strict _ he
    have h5 := h.left _ hc s0 hs0
    dsimp only at h4 h5
    have hpl0 := hpl s0
    rw [← h3, zero_mul] at hpl0
    have h6 : cross b c p * cross a b s0 = 0 := by
      have : 0 ≤ cross b c p * cross a b s0 := by positivity
      have : cross b c s0 * cross a b p ≤ 0 := mul_nonpos_of_nonneg_of_nonpos h5 hv.le
      linarith
    have h7 : cross b c p = 0 := by
      rcases mul_eq_zero.mp h6 with h | h
      · exact h
      · exact absurd h h4.ne'
    have hne := h.ne hc
    dsimp only at hne
    have hid : (c.1 - b.1) * cross a b p = (b.1 - a.1) * cross b c p + (p.1 - b.1) * cross b c a := by
      simp only [cross]; ring
    have hid2 : (c.2 - b.2) * cross a b p = (b.2 - a.2) * cross b c p + (p.2 - b.2) * cross b c a := by
      simp only [cross]; ring
    rw [← h3, h7] at hid hid2
    simp only [mul_zero, add_zero] at hid hid2
    apply hne
    have e1 : c.1 - b.1 = 0 := by
      rcases mul_eq_zero.mp hid with h | h
      · exact h
      · exact absurd h hv.ne
    have e2 : c.2 - b.2 = 0 := by
      rcases mul_eq_zero.mp hid2 with h | h
      · exact h
      · exact absurd h hv.ne
    ext <;> linarith

/-- A point strictly between others, in the sense of a positive combination, that also has points strictly on both
sides is not on the boundary. -/
theorem supp_zero {g u v : P2} (hu : g.1 * u.1 + g.2 * u.2 = 0) (hv : g.1 * v.1 + g.2 * v.2 = 0)
    (h : u.1 * v.2 - u.2 * v.1 ≠ 0) : g = 0 := by
  have h1 : g.1 * (u.1 * v.2 - u.2 * v.1) = 0 := by linear_combination v.2 * hu - u.2 * hv
  have h2 : g.2 * (u.1 * v.2 - u.2 * v.1) = 0 := by linear_combination -v.1 * hu + u.1 * hv
  ext
  · exact (mul_eq_zero.mp h1).resolve_right h
  · exact (mul_eq_zero.mp h2).resolve_right h

/-- The successor of a visible edge is not visible. -/
theorem succ_not_visible {S P : Set P2} {E : Set (P2 × P2)} (h : HullInv S E) (hSP : S ⊆ P) {a b c p : P2} (hpP : p ∈ P)
    (hsup : Supported P b) (he : (a, b) ∈ E) (hc : (b, c) ∈ E) (hv : cross a b p < 0) : 0 ≤ cross b c p := by
  by_contra hvc
  rw [not_le] at hvc
  obtain ⟨g, hg, hP⟩ := hsup
  obtain ⟨s, hs, h4⟩ := h.strict _ he
  have la := hP a (hSP (h.mem _ he).1)
  have lc := hP c (hSP (h.mem _ hc).2)
  have lp := hP p hpP
  have ls := hP s (hSP hs)
  have hac := h.left _ he c (h.mem _ hc).2
  dsimp only at h4 hac
  set A : P2 := a - b with hA
  set C : P2 := c - b with hC
  set Q : P2 := p - b with hQ
  set T : P2 := s - b with hT
  have xAQ : 0 < A.1 * Q.2 - A.2 * Q.1 := by
    have : A.1 * Q.2 - A.2 * Q.1 = - cross a b p := by simp only [hA, hQ, cross, Prod.fst_sub, Prod.snd_sub]; ring
    linarith
  have xQC : 0 < Q.1 * C.2 - Q.2 * C.1 := by
    have : Q.1 * C.2 - Q.2 * C.1 = - cross b c p := by simp only [hC, hQ, cross, Prod.fst_sub, Prod.snd_sub]; ring
    linarith
  have xCA : 0 ≤ C.1 * A.2 - C.2 * A.1 := by
    have : C.1 * A.2 - C.2 * A.1 = cross a b c := by simp only [hC, hA, cross, Prod.fst_sub, Prod.snd_sub]; ring
    linarith
  have xTA : 0 < T.1 * A.2 - T.2 * A.1 := by
    have : T.1 * A.2 - T.2 * A.1 = cross a b s := by simp only [hT, hA, cross, Prod.fst_sub, Prod.snd_sub]; ring
    linarith
  have la : g.1 * A.1 + g.2 * A.2 ≤ 0 := by simpa [hA] using la
  have lc : g.1 * C.1 + g.2 * C.2 ≤ 0 := by simpa [hC] using lc
  have lp : g.1 * Q.1 + g.2 * Q.2 ≤ 0 := by simpa [hQ] using lp
  have ls : g.1 * T.1 + g.2 * T.2 ≤ 0 := by simpa [hT] using ls
  clear_value A C Q T
  have hid : (Q.1 * C.2 - Q.2 * C.1) * (g.1 * A.1 + g.2 * A.2) + (C.1 * A.2 - C.2 * A.1) * (g.1 * Q.1 + g.2 * Q.2)
      + (A.1 * Q.2 - A.2 * Q.1) * (g.1 * C.1 + g.2 * C.2) = 0 := by ring
  have t1 := mul_nonpos_of_nonneg_of_nonpos xQC.le la
  have t2 := mul_nonpos_of_nonneg_of_nonpos xCA lp
  have t3 := mul_nonpos_of_nonneg_of_nonpos xAQ.le lc
  have z1 : g.1 * A.1 + g.2 * A.2 = 0 := by
    have : (Q.1 * C.2 - Q.2 * C.1) * (g.1 * A.1 + g.2 * A.2) = 0 := by linarith
    exact (mul_eq_zero.mp this).resolve_left xQC.ne'
  have hid2 : (Q.1 * T.2 - Q.2 * T.1) * (g.1 * A.1 + g.2 * A.2) + (T.1 * A.2 - T.2 * A.1) * (g.1 * Q.1 + g.2 * Q.2)
      + (A.1 * Q.2 - A.2 * Q.1) * (g.1 * T.1 + g.2 * T.2) = 0 := by ring
  rw [z1, mul_zero, zero_add] at hid2
  have t4 := mul_nonpos_of_nonneg_of_nonpos xTA.le lp
  have t5 := mul_nonpos_of_nonneg_of_nonpos xAQ.le ls
  have z2 : g.1 * Q.1 + g.2 * Q.2 = 0 := by
    have : (T.1 * A.2 - T.2 * A.1) * (g.1 * Q.1 + g.2 * Q.2) = 0 := by linarith
    exact (mul_eq_zero.mp this).resolve_left xTA.ne'
  exact hg (supp_zero z1 z2 xAQ.ne')

/-- No input point is strictly inside a visible edge. -/
theorem not_inside_edge {S P : Set P2} {E : Set (P2 × P2)} (h : HullInv S E) (hSP : S ⊆ P) {a b v p : P2} (hpP : p ∈ P)
    (hsup : Supported P v) (he : (a, b) ∈ E) (hv : cross a b p < 0) {s t : ℝ} (hs : 0 < s) (ht : 0 < t) (hst : s + t = 1)
    (hvx : v = s • a + t • b) : False := by
  obtain ⟨g, hg, hP⟩ := hsup
  obtain ⟨q, hq, h4⟩ := h.strict _ he
  have la := hP a (hSP (h.mem _ he).1)
  have lb := hP b (hSP (h.mem _ he).2)
  have lp := hP p hpP
  have lq := hP q (hSP hq)
  dsimp only at h4 la lb
  obtain rfl : s = 1 - t := by linarith
  have v1 : v.1 = (1 - t) * a.1 + t * b.1 := by rw [hvx]; simp
  have v2 : v.2 = (1 - t) * a.2 + t * b.2 := by rw [hvx]; simp
  rw [v1, v2] at la lb lp lq
  have z : g.1 * (b.1 - a.1) + g.2 * (b.2 - a.2) = 0 := by
    have k1 : t * (g.1 * (b.1 - a.1) + g.2 * (b.2 - a.2)) ≥ 0 := by nlinarith
    have k2 : (1 - t) * (g.1 * (b.1 - a.1) + g.2 * (b.2 - a.2)) ≤ 0 := by nlinarith
    have k1' := nonneg_of_mul_nonneg_right k1 ht
    have k2' : g.1 * (b.1 - a.1) + g.2 * (b.2 - a.2) ≤ 0 := by
      by_contra hcon
      rw [not_le] at hcon
      have := mul_pos hs hcon
      linarith
    linarith
  have lp' : g.1 * (p.1 - a.1) + g.2 * (p.2 - a.2) ≤ 0 := by
    have : g.1 * (p.1 - ((1 - t) * a.1 + t * b.1)) + g.2 * (p.2 - ((1 - t) * a.2 + t * b.2))
      = g.1 * (p.1 - a.1) + g.2 * (p.2 - a.2) - t * (g.1 * (b.1 - a.1) + g.2 * (b.2 - a.2)) := by ring
    rw [this, z] at lp
    linarith
  have lq' : g.1 * (q.1 - a.1) + g.2 * (q.2 - a.2) ≤ 0 := by
    have : g.1 * (q.1 - ((1 - t) * a.1 + t * b.1)) + g.2 * (q.2 - ((1 - t) * a.2 + t * b.2))
      = g.1 * (q.1 - a.1) + g.2 * (q.2 - a.2) - t * (g.1 * (b.1 - a.1) + g.2 * (b.2 - a.2)) := by ring
    rw [this, z] at lq
    linarith
  have hid : cross a b q * (g.1 * (p.1 - a.1) + g.2 * (p.2 - a.2)) - cross a b p * (g.1 * (q.1 - a.1) + g.2 * (q.2 - a.2))
      = ((p.1 - a.1) * (q.2 - a.2) - (p.2 - a.2) * (q.1 - a.1)) * (g.1 * (b.1 - a.1) + g.2 * (b.2 - a.2)) := by
    simp only [cross]; ring
  rw [z, mul_zero] at hid
  have t1 := mul_nonpos_of_nonneg_of_nonpos h4.le lp'
  have t2 := mul_nonneg_of_nonpos_of_nonpos hv.le lq'
  have z2 : g.1 * (p.1 - a.1) + g.2 * (p.2 - a.2) = 0 := by
    have : cross a b q * (g.1 * (p.1 - a.1) + g.2 * (p.2 - a.2)) = 0 := by linarith
    exact (mul_eq_zero.mp this).resolve_left h4.ne'
  refine hg (supp_zero (u := b - a) (v := p - a) (by simpa using z) (by simpa using z2) ?_)
  have : (b - a).1 * (p - a).2 - (b - a).2 * (p - a).1 = cross a b p := by simp [cross]
  rw [this]
  exact hv.ne

/-- A vertex of another visible edge lies on the segment `a b`. -/
theorem on_segment {a b p c d : P2} (hv : cross a b p < 0) {v : P2}
    (h1 : 0 ≤ cross a p v) (h2 : 0 ≤ cross p b v) (h3 : 0 ≤ cross a b v)
    (ha : 0 ≤ cross c d a) (hb : 0 ≤ cross c d b) (hp : cross c d p < 0) (hvz : cross c d v = 0) :
    ∃ s t : ℝ, 0 ≤ s ∧ 0 ≤ t ∧ s + t = 1 ∧ v = s • a + t • b := by
  have hn := hv.ne
  have hn' : 0 < - cross a b p := by linarith
  have hsum : cross p b v + cross a p v + cross a b p = cross a b v := by simp only [cross]; ring
  have hgid : cross p b v * cross c d a + cross a p v * cross c d b
      = (cross p b v + cross a p v + cross a b p) * cross c d p - cross a b p * cross c d v := by
    simp only [cross]; ring
  rw [hvz, mul_zero, sub_zero, hsum] at hgid
  have t1 := mul_nonneg h2 ha
  have t2 := mul_nonneg h1 hb
  have t3 := mul_nonpos_of_nonneg_of_nonpos h3 hp.le
  have hz : cross a b v = 0 := by
    have : cross a b v * cross c d p = 0 := by linarith
    exact (mul_eq_zero.mp this).resolve_right hp.ne
  rw [hz] at hsum
  refine ⟨cross p b v / (- cross a b p), cross a p v / (- cross a b p), by positivity, by positivity, ?_, ?_⟩
  · field_simp; linarith
  · ext
    · simp only [Prod.smul_fst, Prod.fst_add, smul_eq_mul]
      field_simp
      have : cross p b v * a.1 + cross a p v * b.1 + cross a b p * v.1 = cross a b v * p.1 := by simp only [cross]; ring
      rw [hz] at this
      linarith
    · simp only [Prod.smul_snd, Prod.snd_add, smul_eq_mul]
      field_simp
      have : cross p b v * a.2 + cross a p v * b.2 + cross a b p * v.2 = cross a b v * p.2 := by simp only [cross]; ring
      rw [hz] at this
      linarith

/-- Points in convex position: a new point sees at most one edge. -/
theorem visible_unique {S P : Set P2} {E : Set (P2 × P2)} (h : HullInv S E) (hSP : S ⊆ P) {p : P2} (hpP : p ∈ P)
    (hsup : ∀ v ∈ S, Supported P v) {e e' : P2 × P2} (he : e ∈ E) (he' : e' ∈ E) (hv : cross e.1 e.2 p < 0)
    (hv' : cross e'.1 e'.2 p < 0) : e = e' := by
  obtain ⟨a, b⟩ := e
  obtain ⟨c, d⟩ := e'
  dsimp only at hv hv'
  obtain ⟨z, hz⟩ := h.pred _ he
  obtain ⟨w, hw⟩ := h.succ _ he
  dsimp only at hz hw
  have ha := h.mem _ he
  have hc := h.mem _ he'
  dsimp only at ha hc
  have hzp : 0 ≤ cross z a p := by
    by_contra hcon
    rw [not_le] at hcon
    have := succ_not_visible h hSP hpP (hsup a ha.1) hz he hcon
    linarith
  have hwp := succ_not_visible h hSP hpP (hsup b ha.2) he hw hv
  have tl : ∀ v ∈ S, 0 ≤ cross a p v := fun v hv' => tangent_left h hz he hzp hv (subset_convexHull ℝ S hv')
  have tr : ∀ v ∈ S, 0 ≤ cross p b v := fun v hv' => tangent_right h he hw hwp hv (subset_convexHull ℝ S hv')
  have key : ∀ v ∈ S, cross c d v = 0 → v = a ∨ v = b := by
    intro v hvS hvz
    obtain ⟨s, t, hs, ht, hst, hvx⟩ := on_segment hv (tl v hvS) (tr v hvS) (h.left _ he v hvS) (h.left _ he' a ha.1)
      (h.left _ he' b ha.2) hv' hvz
    rcases hs.lt_or_eq with hs | hs
    · rcases ht.lt_or_eq with ht | ht
      · exact absurd (not_inside_edge h hSP hpP (hsup v hvS) he hv hs ht hst hvx) id
      · left
        have : s = 1 := by linarith
        rw [hvx, this, ← ht]; simp
    · right
      have : t = 1 := by linarith
      rw [hvx, this, ← hs]; simp
  have hcd := h.ne he'
  dsimp only at hcd
  have hab : cross b a p > 0 := by rw [cross_swap]; linarith
  rcases key c hc.1 (cross_self_left c d) with rfl | rfl <;> rcases key d hc.2 (cross_self_right _ d) with rfl | rfl
  · exact absurd rfl hcd
  · rfl
  · linarith
  · exact absurd rfl hcd

/-- A point that sees no edge changes nothing. -/
theorem HullInv.add_inside {S : Set P2} {E : Set (P2 × P2)} (h : HullInv S E) {p : P2}
    (hp : ∀ e ∈ E, 0 ≤ cross e.1 e.2 p) :
    HullInv (insert p S) E ∧ convexHull ℝ (insert p S) = convexHull ℝ S := by
  have hpH := h.hull p hp
  have hE : convexHull ℝ (insert p S) = convexHull ℝ S := by
    apply Set.Subset.antisymm
    · apply convexHull_min _ (convex_convexHull ℝ S)
      intro x hx
      rcases hx with rfl | hx
      · exact hpH
      · exact subset_convexHull ℝ S hx
    · exact convexHull_mono (Set.subset_insert p S)
  refine ⟨⟨?_, ?_, ?_, h.pred, h.succ, ?_⟩, hE⟩
  · rintro e he s (rfl | hs)
    · exact hp e he
    · exact h.left e he s hs
  · intro e he
    obtain ⟨s, hs, h1⟩ := h.strict e he
    exact ⟨s, Or.inr hs, h1⟩
  · intro e he
    exact ⟨Or.inr (h.mem e he).1, Or.inr (h.mem e he).2⟩
  · intro x hx
    rw [hE]
    exact h.hull x hx

/-- Adding a point that sees exactly one edge `(a, b)`. -/
theorem HullInv.add_visible {S : Set P2} {E : Set (P2 × P2)} (h : HullInv S E) {p a b : P2} (he : (a, b) ∈ E)
    (hv : cross a b p < 0) (honly : ∀ e ∈ E, e ≠ (a, b) → 0 ≤ cross e.1 e.2 p) :
    HullInv (insert p S) ((E \ {(a, b)}) ∪ {(a, p), (p, b)}) ∧
    convexHull ℝ (insert p S) = convexHull ℝ S ∪ tri a p b ∧
    convexHull ℝ S ∩ tri a p b ⊆ {x | cross a b x = 0} ∧ p ∉ convexHull ℝ S := by
  obtain ⟨z, hz⟩ := h.pred _ he
  obtain ⟨w, hw⟩ := h.succ _ he
  have ha := h.mem _ he
  have hab := h.ne he
  dsimp only at hz hw ha hab
  have hzp : 0 ≤ cross z a p := honly _ hz (by intro h0; exact hab (Prod.ext_iff.mp h0).2)
  have hwp : 0 ≤ cross b w p := honly _ hw (by intro h0; exact hab (Prod.ext_iff.mp h0).1.symm)
  have tl : ∀ x ∈ convexHull ℝ S, 0 ≤ cross a p x := fun x hx => tangent_left h hz he hzp hv hx
  have tr : ∀ x ∈ convexHull ℝ S, 0 ≤ cross p b x := fun x hx => tangent_right h he hw hwp hv hx
  have hpos : 0 < cross a p b := by
    have : cross a p b = - cross a b p := by simp only [cross]; ring
    linarith
  have hpH : p ∉ convexHull ℝ S := fun hp => by
    have := h.hull_left he hp
    dsimp only at this
    linarith
  have hsub : convexHull ℝ S ∪ tri a p b ⊆ convexHull ℝ (insert p S) := by
    apply Set.union_subset (convexHull_mono (Set.subset_insert p S))
    apply convexHull_min _ (convex_convexHull ℝ _)
    intro x hx
    simp only [Set.mem_insert_iff, Set.mem_singleton_iff] at hx
    rcases hx with rfl | rfl | rfl
    · exact subset_convexHull ℝ _ (Or.inr ha.1)
    · exact subset_convexHull ℝ _ (Or.inl rfl)
    · exact subset_convexHull ℝ _ (Or.inr ha.2)
  -- a point left of all the new edges is in the union
  have hcov : ∀ x, (∀ e ∈ (E \ {(a, b)}) ∪ {(a, p), (p, b)}, 0 ≤ cross e.1 e.2 x) → x ∈ convexHull ℝ S ∪ tri a p b := by
    intro x hx
    have h1 := hx (a, p) (Or.inr (by simp))
    have h2 := hx (p, b) (Or.inr (by simp))
    dsimp only at h1 h2
    by_cases hxe : 0 ≤ cross a b x
    · left
      apply h.hull
      intro e hee
      by_cases h0 : e = (a, b)
      · rw [h0]; exact hxe
      · exact hx e (Or.inl ⟨hee, h0⟩)
    · right
      rw [mem_tri_iff hpos]
      refine ⟨h1, h2, ?_⟩
      rw [cross_swap]; linarith
  have hleft : ∀ e ∈ (E \ {(a, b)}) ∪ {(a, p), (p, b)}, ∀ s ∈ insert p S, 0 ≤ cross e.1 e.2 s := by
    intro e hee s hs
    simp only [Set.mem_union, Set.mem_sdiff, Set.mem_singleton_iff, Set.mem_insert_iff] at hee
    rcases hee with ⟨hee, hne⟩ | rfl | rfl
    · rcases hs with rfl | hs
      · exact honly e hee hne
      · exact h.left e hee s hs
    · rcases hs with rfl | hs
      · exact (cross_self_right _ _).ge
      · exact tl s (subset_convexHull ℝ S hs)
    · rcases hs with rfl | hs
      · exact (cross_self_left _ _).ge
      · exact tr s (subset_convexHull ℝ S hs)
  have hE : convexHull ℝ (insert p S) = convexHull ℝ S ∪ tri a p b := by
    apply Set.Subset.antisymm _ hsub
    intro x hx
    apply hcov
    intro e hee
    exact convexHull_min (hleft e hee) (convex_halfplane e.1 e.2) hx
  refine ⟨⟨hleft, ?_, ?_, ?_, ?_, ?_⟩, hE, ?_, hpH⟩
  · intro e hee
    simp only [Set.mem_union, Set.mem_sdiff, Set.mem_singleton_iff, Set.mem_insert_iff] at hee
    rcases hee with ⟨hee, hne⟩ | rfl | rfl
    · obtain ⟨s, hs, h1⟩ := h.strict e hee
      exact ⟨s, Or.inr hs, h1⟩
    · exact ⟨b, Or.inr ha.2, hpos⟩
    · refine ⟨a, Or.inr ha.1, ?_⟩
      dsimp only
      rw [cross_cyc]; exact hpos
  · intro e hee
    simp only [Set.mem_union, Set.mem_sdiff, Set.mem_singleton_iff, Set.mem_insert_iff] at hee
    rcases hee with ⟨hee, hne⟩ | rfl | rfl
    · exact ⟨Or.inr (h.mem e hee).1, Or.inr (h.mem e hee).2⟩
    · exact ⟨Or.inr ha.1, Or.inl rfl⟩
    · exact ⟨Or.inl rfl, Or.inr ha.2⟩
  · intro e hee
    simp only [Set.mem_union, Set.mem_sdiff, Set.mem_singleton_iff, Set.mem_insert_iff] at hee
    rcases hee with ⟨hee, hne⟩ | rfl | rfl
    · obtain ⟨y, hy⟩ := h.pred e hee
      by_cases h0 : (y, e.1) = (a, b)
      · exact ⟨p, Or.inr (Or.inr (Prod.ext rfl (Prod.ext_iff.mp h0).2))⟩
      · exact ⟨y, Or.inl ⟨hy, h0⟩⟩
    · exact ⟨z, Or.inl ⟨hz, by intro h0; exact hab (Prod.ext_iff.mp h0).2⟩⟩
    · exact ⟨a, Or.inr (by simp)⟩
  · intro e hee
    simp only [Set.mem_union, Set.mem_sdiff, Set.mem_singleton_iff, Set.mem_insert_iff] at hee
    rcases hee with ⟨hee, hne⟩ | rfl | rfl
    · obtain ⟨y, hy⟩ := h.succ e hee
      by_cases h0 : (e.2, y) = (a, b)
      · exact ⟨p, Or.inr (Or.inl (Prod.ext (Prod.ext_iff.mp h0).1 rfl))⟩
      · exact ⟨y, Or.inl ⟨hy, h0⟩⟩
    · exact ⟨b, Or.inr (by simp)⟩
    · exact ⟨w, Or.inl ⟨hw, by intro h0; exact hab (Prod.ext_iff.mp h0).1.symm⟩⟩
  · intro x hx
    rw [hE]
    exact hcov x hx
  · rintro x ⟨hx1, hx2⟩
    have h1 := h.hull_left he hx1
    have h2 := ((mem_tri_iff hpos x).mp hx2).2.2
    rw [cross_swap] at h2
    dsimp only at h1
    show cross a b x = 0
    linarith

/-- Area of the grown hull. -/
theorem volume_add {S : Set P2} {p a b : P2} (hv : cross a b p < 0)
    (hE : convexHull ℝ (insert p S) = convexHull ℝ S ∪ tri a p b)
    (hI : convexHull ℝ S ∩ tri a p b ⊆ {x | cross a b x = 0}) :
    volume (convexHull ℝ (insert p S)) = volume (convexHull ℝ S) + ENNReal.ofReal (cross a p b / 2) := by
  have hab : a ≠ b := by
    rintro rfl
    rw [cross_aa] at hv
    exact lt_irrefl _ hv
  have hpos : cross a p b = - cross a b p := by simp only [cross]; ring
  have hm : MeasurableSet (tri a p b) := by
    apply IsClosed.measurableSet
    exact (Set.toFinite {a, p, b}).isClosed_convexHull ℝ
  rw [hE, measure_union₀ hm.nullMeasurableSet, volume_tri, abs_of_pos (by linarith)]
  exact measure_mono_null hI (volume_line hab)

/-- The first triangle. -/
theorem hullInv_tri {a b c : P2} (h : 0 < cross a b c) :
    HullInv {a, b, c} {(a, b), (b, c), (c, a)} := by
  have e1 : cross b c a = cross a b c := cross_cyc a b c
  have e2 : cross c a b = cross a b c := by rw [← cross_cyc c a b]
  refine ⟨?_, ?_, ?_, ?_, ?_, ?_⟩
  · rintro e (rfl | rfl | rfl) s (rfl | rfl | rfl) <;> dsimp only <;>
      first | exact (cross_self_left _ _).ge | exact (cross_self_right _ _).ge | linarith
  · rintro e (rfl | rfl | rfl)
    · exact ⟨c, by simp, h⟩
    · exact ⟨a, by simp, by dsimp only; linarith⟩
    · exact ⟨b, by simp, by dsimp only; linarith⟩
  · rintro e (rfl | rfl | rfl) <;> simp
  · rintro e (rfl | rfl | rfl)
    · exact ⟨c, by simp⟩
    · exact ⟨a, by simp⟩
    · exact ⟨b, by simp⟩
  · rintro e (rfl | rfl | rfl)
    · exact ⟨c, by simp⟩
    · exact ⟨a, by simp⟩
    · exact ⟨b, by simp⟩
  · intro x hx
    exact (mem_tri_iff h x).mpr ⟨hx (a, b) (by simp), hx (b, c) (by simp), hx (c, a) (by simp)⟩

/-- A point that is not in the interior of a hull with interior is supported. -/
theorem supported_of_not_interior {P : Set P2} {v : P2} (hne : (interior (convexHull ℝ P)).Nonempty)
    (hv : v ∉ interior (convexHull ℝ P)) : Supported P v := by
  have hconv : Convex ℝ (convexHull ℝ P) := convex_convexHull ℝ P
  obtain ⟨f, hf⟩ := geometric_hahn_banach_open_point hconv.interior isOpen_interior hv
  have hfx : ∀ x : P2, f x = f (1, 0) * x.1 + f (0, 1) * x.2 := by
    intro x
    have : x = x.1 • ((1, 0) : P2) + x.2 • ((0, 1) : P2) := by ext <;> simp
    conv_lhs => rw [this]
    rw [map_add, map_smul, map_smul, smul_eq_mul, smul_eq_mul]
    ring
  refine ⟨(f (1, 0), f (0, 1)), ?_, ?_⟩
  · intro h0
    obtain ⟨y, hy⟩ := hne
    have := hf y hy
    rw [hfx y, hfx v] at this
    have h1 := (Prod.ext_iff.mp h0).1
    have h2 := (Prod.ext_iff.mp h0).2
    simp only [Prod.fst_zero, Prod.snd_zero] at h1 h2
    rw [h1, h2] at this
    simp at this
  · intro x hx
    have hxc : x ∈ closure (interior (convexHull ℝ P)) := by
      rw [hconv.closure_interior_eq_closure_of_nonempty_interior hne]
      exact subset_closure (subset_convexHull ℝ P hx)
    have hle : f x ≤ f v := by
      have hcl : closure (interior (convexHull ℝ P)) ⊆ {y | f y ≤ f v} := by
        apply closure_minimal
        · intro y hy; exact (hf y hy).le
        · exact isClosed_le f.continuous continuous_const
      exact hcl hxc
    rw [hfx x, hfx v] at hle
    dsimp only
    linarith

/-- A non-degenerate triangle has interior. -/
theorem interior_of_cross {P : Set P2} {a b c : P2} (ha : a ∈ P) (hb : b ∈ P) (hc : c ∈ P) (h : cross a b c ≠ 0) :
    (interior (convexHull ℝ P)).Nonempty := by
  have key : ∀ a b c : P2, a ∈ P → b ∈ P → c ∈ P → 0 < cross a b c → (interior (convexHull ℝ P)).Nonempty := by
    intro a b c ha hb hc h
    have hsub : tri a b c ⊆ convexHull ℝ P := convexHull_mono (by
      rintro x (rfl | rfl | rfl) <;> assumption)
    have hopen : IsOpen {x : P2 | 0 < cross a b x ∧ 0 < cross b c x ∧ 0 < cross c a x} := by
      have hc : ∀ p q : P2, IsOpen {x : P2 | 0 < cross p q x} := fun p q =>
        isOpen_lt continuous_const (by unfold cross; fun_prop)
      exact (hc a b).inter ((hc b c).inter (hc c a))
    have hin : {x : P2 | 0 < cross a b x ∧ 0 < cross b c x ∧ 0 < cross c a x} ⊆ interior (convexHull ℝ P) := by
      apply interior_maximal _ hopen
      rintro x ⟨h1, h2, h3⟩
      exact hsub ((mem_tri_iff h x).mpr ⟨h1.le, h2.le, h3.le⟩)
    refine ⟨((a.1 + b.1 + c.1) / 3, (a.2 + b.2 + c.2) / 3), hin ⟨?_, ?_, ?_⟩⟩
    · have : cross a b ((a.1 + b.1 + c.1) / 3, (a.2 + b.2 + c.2) / 3) = cross a b c / 3 := by simp only [cross]; ring
      rw [this]; positivity
    · have : cross b c ((a.1 + b.1 + c.1) / 3, (a.2 + b.2 + c.2) / 3) = cross a b c / 3 := by simp only [cross]; ring
      rw [this]; positivity
    · have : cross c a ((a.1 + b.1 + c.1) / 3, (a.2 + b.2 + c.2) / 3) = cross a b c / 3 := by simp only [cross]; ring
      rw [this]; positivity
  rcases lt_or_gt_of_ne h with h | h
  · exact key b a c hb ha hc (by rw [cross_swap]; linarith)
  · exact key a b c ha hb hc h

end Sg.Plane
