import Verif.Spec.RoundedFlowLine
import Verif.Proof.FlowRun
import Verif.Proof.FlowIntegral
import Verif.Proof.ConserveRounded
import Verif.Props.FlowRounding
import Verif.Props.LineRounding
/-
Flow interpolation in rounded arithmetic: one cell.
-/
namespace Sg.FlowInterp
open Sg Sg.LinearSolve Sg.Triangulate Sg.QuadIntersect Sg.FindPoint Sg.QuadLine Sg.QuadFlows Sg.Spec Sg.Props Sg.Plane

variable {rnd : ℝ → ℝ} {g : Gels (Fl rnd)} {u β Δ L R ρ : ℝ} {q : Quad (Fl rnd)} {a b : Pt (Fl rnd)}

/-! ### The parameters found -/

/-- An accepted crossing: the two lines are close there. -/
theorem edge_resid (hf : SolvesLine rnd g u β Δ) {e0 e1 : Pt (Fl rnd)} (h1 : dist (valPt e0) (valPt e1) ≤ L) (hlen : dist (valPt a) (valPt b) ≤ L)
    (hab : valPt a ≠ valPt b) {x : Fl rnd} (h : edgeLam g e0 e1 a b = some x) :
    ∃ s, -(2 * lineTol) ≤ s ∧ s ≤ 1 + 2 * lineTol ∧ -(2 * lineTol) ≤ x.val ∧ x.val ≤ 1 + 2 * lineTol ∧
      dist (valPt e0 + s • (valPt e1 - valPt e0)) (valPt a + x.val • (valPt b - valPt a)) ≤ lineTol * L := by
  have hL : 0 ≤ L := dist_nonneg.trans h1
  obtain ⟨t1, t2⟩ := ltol_near hf
  obtain ⟨hu, hub, hres⟩ := fine_resid_line hf
  have hlt := lineTol_pos
  have hl1 : lineTol ≤ 1 / 1000 := by rw [lineTol_val]; norm_num
  unfold edgeLam at h
  dsimp only at h
  split_ifs at h with hi hc
  have hi0 := info_zero hf hi
  obtain ⟨c1, c2, c3, c4⟩ := hc
  have ha : ∀ k < 4, (edgeMat e0 e1 a b k).val = rnd (edgeMat (valPt e0) (valPt e1) (valPt a) (valPt b) k) :=
    fun k _ => edgeMat_val _ _ _ _ k
  have hb : ∀ k < 2, (triRhs a e0 k).val = rnd (triRhs (valPt a) (valPt e0) k) := fun k _ => triRhs_val _ _ k
  have hA : ∀ k < 4, |edgeMat (valPt e0) (valPt e1) (valPt a) (valPt b) k| ≤ L := fun k hk =>
    (edge_bound _ _ _ _ k hk).trans (max_le h1 hlen)
  have hz := nonzero_args hf (b := triRhs a e0) ha (by
    intro hall
    have z1 := hall 1 (by norm_num)
    have z3 := hall 3 (by norm_num)
    simp only [edgeMat, sub_eq_zero] at z1 z3
    exact hab (Prod.ext z1 z3))
  obtain ⟨r0, r1⟩ := residual hf.solves ha hb hA hz hi0
  simp only [Option.some.injEq] at h
  have hxv : x.val = entry (g (args2 (edgeMat e0 e1 a b) (triRhs a e0))).b 1 := by rw [← h]; rfl
  set x0 := entry (g (args2 (edgeMat e0 e1 a b) (triRhs a e0))).b 0 with hx0
  set x1 := entry (g (args2 (edgeMat e0 e1 a b) (triRhs a e0))).b 1 with hx1
  have c1 : -(ltol : Fl rnd).val ≤ x0 := c1
  have c2 : x0 < ((1 : Fl rnd) + ltol).val := c2
  have c3 : -(ltol : Fl rnd).val ≤ x1 := c3
  have c4 : x1 < ((1 : Fl rnd) + ltol).val := c4
  rw [hxv]
  rw [abs_le] at t1 t2
  have b0 : |x0| ≤ 11 / 10 := by rw [abs_le]; constructor <;> linarith [t1.1, t1.2, t2.1, t2.2]
  have b1 : |x1| ≤ 11 / 10 := by rw [abs_le]; constructor <;> linarith [t1.1, t1.2, t2.1, t2.2]
  have hρ : resid u β ≤ 1 / 100 := by linarith
  have s0 := resid_small hL (hA 0 (by norm_num)) (hA 1 (by norm_num)) b0 b1 hu hub hρ r0
  have s1 := resid_small hL (hA 2 (by norm_num)) (hA 3 (by norm_num)) b0 b1 hu hub hρ r1
  have hbound : 5 * resid u β * L ≤ lineTol * L := mul_le_mul_of_nonneg_right (by linarith) hL
  refine ⟨x0, by linarith [t1.1, t1.2], by linarith [t2.1, t2.2], by linarith [t1.1, t1.2], by linarith [t2.1, t2.2], ?_⟩
  rw [Prod.dist_eq, Real.dist_eq, Real.dist_eq, max_le_iff]
  constructor
  · refine le_trans (le_of_eq ?_) (s0.trans hbound)
    congr 1
    simp only [edgeMat, triRhs, Prod.fst_sub, Prod.fst_add, Prod.smul_fst, smul_eq_mul]
    ring
  · refine le_trans (le_of_eq ?_) (s1.trans hbound)
    congr 1
    simp only [edgeMat, triRhs, Prod.snd_sub, Prod.snd_add, Prod.smul_snd, smul_eq_mul]
    ring

theorem fair_parallelogram (hΔ : 0 < Δ) (hL : 0 < L) {q : Fin 4 → ℝ × ℝ} (h : FairCell Δ L R q) : Parallelogram q where
  fst := congrArg Prod.fst h.closed
  snd := congrArg Prod.snd h.closed
  area := by
    have h1 := h.area
    have : 0 < Δ * L ^ 2 := by positivity
    have h2 := abs_pos.mp (this.trans_le h1)
    intro h3
    apply h2
    unfold area2
    linarith

theorem not_beyond (hf : SolvesLine rnd g u β Δ) (hL : 0 < L) (hc : FairCell Δ L R (valQuad q)) (hsize : ∀ i j, dist (valQuad q i) (valQuad q j) ≤ L)
    {p : Pt (Fl rnd)} (h : valPt p ∈ quadRegion (valQuad q) ∨ ∃ i, BeyondEdge (8 * lineTol * L ^ 2) (valQuad q) i (valPt p) (valPt p))
    (hin : inQuad g p q = true) : valPt p ∈ quadRegion (valQuad q) := by
  rcases h with h | ⟨i, hi⟩
  · exact h
  exfalso
  have hcv := convexQuad_of (fair_parallelogram hf.solves.shape hL hc)
  obtain ⟨σ, hσ, hr⟩ := signed_region hcv
  have hn := inQuad_near hf hcv hsize hσ hr hin i
  have hm : 0 < 8 * lineTol * L ^ 2 := by have := lineTol_pos; positivity
  have hnode : ∀ j, 0 ≤ σ * area2 (valQuad q i) (valQuad q (i + 1)) (valQuad q j) := fun j => (hr _).mp (mem_region _ j) i
  have hne : valQuad q i ≠ valQuad q (i + 1) := by
    intro he
    rcases hi with ⟨-, h2, -⟩ | ⟨-, h2, -⟩
    · rw [he] at h2; simp only [area2] at h2; nlinarith
    · rw [he] at h2; simp only [area2] at h2; nlinarith
  obtain ⟨j, hj⟩ := off_edge hcv hne
  have hj' := hnode j
  rcases hi with ⟨h1, h2, -⟩ | ⟨h1, h2, -⟩
  · have := h1 j
    rcases hσ with rfl | rfl
    · linarith
    · exact hj (le_antisymm (by linarith) this)
  · have := h1 j
    rcases hσ with rfl | rfl
    · exact hj (le_antisymm this (by linarith))
    · linarith

theorem found_in (hf : SolvesLine rnd g u β Δ) (hL : 0 < L) (hc : FairCell Δ L R (valQuad q)) (hsize : ∀ i j, dist (valQuad q i) (valQuad q j) ≤ L)
    {p : Pt (Fl rnd)} (hp : valPt p ∈ quadRegion (valQuad q)) : inQuad g p q = true := by
  have hpar := fair_parallelogram hf.solves.shape hL hc
  unfold inQuad
  rw [Bool.or_eq_true]
  have h1 := hpar.fst
  have h2 := hpar.snd
  have e : area2 (valQuad q 2) (valQuad q 3) (valQuad q 1) = area2 (valQuad q 0) (valQuad q 1) (valQuad q 3) := by
    unfold area2
    have e1 : (valQuad q 2).1 = (valQuad q 1).1 + (valQuad q 3).1 - (valQuad q 0).1 := by linarith
    have e2 : (valQuad q 2).2 = (valQuad q 1).2 + (valQuad q 3).2 - (valQuad q 0).2 := by linarith
    rw [e1, e2]; ring
  rcases (region_tris (convexQuad_of hpar) (valPt p)).mp hp with ⟨-, h⟩ | ⟨-, h⟩
  · left
    exact tri_found hf hL (hsize 0 1) (hsize 0 3) hc.area h
  · right
    refine tri_found hf hL (hsize 2 3) (hsize 2 1) ?_ h
    have := hc.area
    rw [← e] at this
    exact this

/-- Every parameter found is near one inside. -/
theorem collected_inside (hf : SolvesLine rnd g u β Δ) (hL : 0 < L) (hl : FairFlow Δ L R (valQuad q) (valPt a) (valPt b)) {x : Fl rnd}
    (h : x ∈ collectedL g q a b) : ∃ t ∈ insideParams (valQuad q) (valPt a) (valPt b), |x.val - t| ≤ 2 / 5 * lineTol := by
  have hlt := lineTol_pos
  rcases mem_collectedL_fl.mp h with ⟨rfl, h2⟩ | ⟨i, h⟩ | ⟨rfl, h2⟩
  · refine ⟨0, ⟨le_rfl, zero_le_one, ?_⟩, by show |(0 : ℝ) - 0| ≤ _; simp; positivity⟩
    rw [zero_smul, add_zero]
    exact not_beyond hf hL hl.cell hl.size (hl.ends _ (Or.inl rfl)) h2
  · rcases hl.edges i with ⟨hd, p, hp1, hp2⟩ | hap
    · obtain ⟨t, t0, t1, rfl⟩ := mem_segment_iff.mp hp2
      obtain ⟨y, hy, hd⟩ := edge_found (a := a) (b := b) hf hL (hl.size i (i + 1)) hl.length hd t0 t1 hp1
      have : some x = some y := h.symm.trans hy
      cases this
      refine ⟨t, ⟨t0, t1, ?_⟩, hd⟩
      exact (convex_convexHull ℝ _).segment_subset (mem_region _ i) (mem_region _ (i + 1)) hp1
    · obtain ⟨s, h1, h2, h3, h4, h5⟩ := edge_resid hf (hl.size i (i + 1)) hl.length hl.proper h
      exact absurd h5 (not_le.mpr (hap s x.val h1 h2 h3 h4))
  · refine ⟨1, ⟨zero_le_one, le_rfl, ?_⟩, by show |(1 : ℝ) - 1| ≤ _; simp; positivity⟩
    rw [one_smul, add_sub_cancel]
    exact not_beyond hf hL hl.cell hl.size (hl.ends _ (Or.inr rfl)) h2

/-- The ends of the part inside are found. -/
theorem flow_ends (hf : SolvesLine rnd g u β Δ) (hL : 0 < L) (hl : FairFlow Δ L R (valQuad q) (valPt a) (valPt b)) {t : ℝ}
    (ht : IsLeast (insideParams (valQuad q) (valPt a) (valPt b)) t ∨ IsGreatest (insideParams (valQuad q) (valPt a) (valPt b)) t) :
    ∃ x ∈ collectedL g q a b, |x.val - t| ≤ 2 / 5 * lineTol := by
  have hlt := lineTol_pos
  have hcv := convexQuad_of (fair_parallelogram hf.solves.shape hL hl.cell)
  have hmem : t ∈ insideParams (valQuad q) (valPt a) (valPt b) := ht.elim (fun h => h.1) fun h => h.1
  have hcase : (t = 0 ∨ t = 1) ∨ ∃ i, valPt a + t • (valPt b - valPt a) ∈ segment ℝ (valQuad q i) (valQuad q (i + 1)) := by
    rcases ht with h | h
    · rcases least_edge hcv h with h | ⟨i, hi, hk⟩
      · exact Or.inl (Or.inl h)
      · exact Or.inr ⟨i, hi⟩
    · rcases greatest_edge hcv h with h | ⟨i, hi, hk⟩
      · exact Or.inl (Or.inr h)
      · exact Or.inr ⟨i, hi⟩
  rcases hcase with (rfl | rfl) | ⟨i, hi⟩
  · refine ⟨0, mem_collectedL_fl.mpr (Or.inl ⟨rfl, ?_⟩), by show |(0 : ℝ) - 0| ≤ _; simp; positivity⟩
    refine found_in hf hL hl.cell hl.size ?_
    have := hmem.2.2
    simpa using this
  · refine ⟨1, mem_collectedL_fl.mpr (Or.inr (Or.inr ⟨rfl, ?_⟩)), by show |(1 : ℝ) - 1| ≤ _; simp; positivity⟩
    refine found_in hf hL hl.cell hl.size ?_
    have := hmem.2.2
    simpa using this
  · rcases hl.edges i with ⟨hd, -⟩ | hap
    · obtain ⟨x, hx, hd⟩ := edge_found (a := a) (b := b) hf hL (hl.size i (i + 1)) hl.length hd hmem.1 hmem.2.1 hi
      exact ⟨x, mem_collectedL_fl.mpr (Or.inr (Or.inl ⟨i, hx⟩)), hd⟩
    · exfalso
      obtain ⟨s, s0, s1, e⟩ := mem_segment_iff.mp hi
      have := hap s t (by linarith) (by linarith) (by linarith [hmem.1]) (by linarith [hmem.2.1])
      rw [← e, dist_self] at this
      have : 0 < lineTol * L := by positivity
      linarith

theorem collectedL_length : (collectedL g q a b).length ≤ 6 := by
  have h1 : ∀ (p : Pt (Fl rnd)) (x : Fl rnd), (endHit g p q x).length ≤ 1 := by
    intro p x; unfold endHit; split <;> simp
  have h2 : ∀ i, (edgeHitL g q a b i).length ≤ 1 := by
    intro i; unfold edgeHitL; cases edgeLam g (q (node i)) (q (node (i + 1))) a b <;> simp
  have h3 : ((List.range 4).flatMap (edgeHitL g q a b)).length ≤ 4 := by
    have e : List.range 4 = [0, 1, 2, 3] := rfl
    rw [e]
    simp only [List.flatMap_cons, List.flatMap_nil, List.length_append, List.append_nil]
    linarith [h2 0, h2 1, h2 2, h2 3]
  unfold collectedL
  simp only [List.length_append]
  linarith [h1 a 0, h1 b 1]

/-! ### The box test -/

theorem overlapL_val (q : Quad (Fl rnd)) (a b : Pt (Fl rnd)) : overlapL q a b = overlapL (valQuad q) (valPt a) (valPt b) := by
  have key : ∀ (f : Fin 4 → Fl rnd) (x y : Fl rnd), (stdMax (quadMin f) (stdMin y x) ≤ stdMin (quadMax f) (stdMax y x)) ↔
      (stdMax (quadMin fun i => (f i).val) (stdMin y.val x.val) ≤ stdMin (quadMax fun i => (f i).val) (stdMax y.val x.val)) := by
    intro f x y
    show (stdMax (quadMin f) (stdMin y x)).val ≤ (stdMin (quadMax f) (stdMax y x)).val ↔ _
    simp only [quadMin, quadMax, Conserve.stdMin_val, Conserve.stdMax_val]
  unfold overlapL quadBox lineBox
  dsimp only
  congr 1
  · rw [decide_eq_decide]; exact key (fun i => (q i).1) a.1 b.1
  · rw [decide_eq_decide]; exact key (fun i => (q i).2) a.2 b.2

/-! ### The pieces -/

theorem pieces_defined (hr : Rounds rnd u 0) (hN : KeepsInts rnd 10000000000) (half : rnd (1 / 2) = 1 / 2) (hu : u ≤ 1 / 10 ^ 14)
    (hg : FindPoint.KeepsSizes g) : PiecesOk g := by
  intro s0 q pts h0
  have hr0 : FlowsReached g (s0.setQuadPoints q) := flowsReached_step h0 (.setQuad q) rfl
  obtain ⟨⟨s', p'⟩, e, hr', -⟩ := forN_inv
    (fun _ (s : Flows (Fl rnd) × (Fin 4 → Fl rnd)) => FlowsReached g s.1 ∧ FlQuad q s.1.finder)
    (fun i (s : Flows (Fl rnd) × (Fin 4 → Fl rnd)) => do
      let a ← vget pts i
      let b ← vget pts (i + 1)
      let (f, _) ← (s.1.setLinePoints a b).computeProjections g
      let p0 ← f.getProjection 0
      let p1 ← f.getProjection 1
      let p2 ← f.getProjection 2
      let p3 ← f.getProjection 3
      return (f, fun e => match e with | 0 => s.2 0 + p0 | 1 => s.2 1 + p1 | 2 => s.2 2 + p2 | 3 => s.2 3 + p3))
    (pts.length - 1) (s0.setQuadPoints q, fun _ => 0) ⟨hr0, flQuad_set (flowsReached_finder g h0)⟩ (by
      rintro i ⟨s, acc⟩ hi ⟨hrs, hq⟩
      dsimp only at hrs hq
      obtain ⟨a, va⟩ : ∃ a, vget pts i = .ok a := ⟨_, vget_eq_ok.mpr (List.getElem?_eq_getElem (by omega))⟩
      obtain ⟨b, vb⟩ : ∃ b, vget pts (i + 1) = .ok b := ⟨_, vget_eq_ok.mpr (List.getElem?_eq_getElem (by omega))⟩
      have hR : ∀ i, |(q i).1.val| ≤ ∑ j, (|(q j).1.val| + |(q j).2.val|) ∧ |(q i).2.val| ≤ ∑ j, (|(q j).1.val| + |(q j).2.val|) := by
        intro i
        have := Finset.single_le_sum (f := fun j => |(q j).1.val| + |(q j).2.val|) (fun j _ => by positivity) (Finset.mem_univ i)
        constructor <;> linarith [abs_nonneg (q i).1.val, abs_nonneg (q i).2.val]
      obtain ⟨ca, da, fa, e1, q1, -⟩ := find_any hr hN half hu hg hR hq a
      obtain ⟨cb, db, fb, e2, q2, -⟩ := find_any hr hN half hu hg hR q1 b
      have hc := (project_eq g s a b _ _ _ _ _ _ e1 e2).2
      refine ⟨_, bind_eq va (bind_eq vb (bind_eq hc (bind_eq rfl (bind_eq rfl (bind_eq rfl (bind_eq rfl rfl)))))), ?_, q2⟩
      refine flowsReached_step (s := s.setLinePoints a b) (flowsReached_step hrs (.setLine a b) rfl) .compute ?_
      exact bind_eq hc rfl)
  exact ⟨s', p', e, hr'⟩

theorem projAt_le {x y : Fin 2 → ℝ} (hx : InCell x) (hy : InCell y) (e : Fin 4) : |projAt x y e| ≤ 1 := by
  have key : ∀ {d m : ℝ}, |d| ≤ 1 → |m| ≤ 1 → |d * m| ≤ 1 := fun hd hm => by rw [abs_mul]; exact mul_le_one₀ hd (abs_nonneg _) hm
  have D : ∀ k, |y k - x k| ≤ 1 ∧ |(x k + y k) / 2| ≤ 1 ∧ |1 - (x k + y k) / 2| ≤ 1 := by
    intro k
    obtain ⟨b1, b2⟩ := hx k
    obtain ⟨b3, b4⟩ := hy k
    refine ⟨?_, ?_, ?_⟩ <;> rw [abs_le] <;> constructor <;> linarith
  match e with
  | 0 => exact key (D 0).1 (D 1).2.2
  | 1 => exact key (D 0).1 (D 1).2.1
  | 2 => exact key (D 1).1 (D 0).2.2
  | 3 => exact key (D 1).1 (D 0).2.1

theorem projAt_self (x : Fin 2 → ℝ) (e : Fin 4) : projAt x x e = 0 := by
  fin_cases e <;> simp [projAt]

/-- The weights of the pieces of a straight line. -/
theorem pieces_fl (h : SearchesFinely rnd g u β Δ ρ L R) (hc : FairCell Δ L R (valQuad q)) {s0 : Flows (Fl rnd)} (h0 : FlowsReached g s0)
    (pts : List (Pt (Fl rnd))) (hlen : pts.length ≤ 6) (hpos : 1 ≤ pts.length) (X : Nat → Fin 2 → ℝ)
    (hX : ∀ i < pts.length, InCell (X i) ∧ NearPt ρ (pts.getD i (0, 0)) (pointAt (valQuad q) (X i)))
    (hadd : ∀ i, i + 1 < pts.length → ∀ e, projAt (X 0) (X i) e + projAt (X i) (X (i + 1)) e = projAt (X 0) (X (i + 1)) e)
    (hpe : projError u (indexError u β Δ ρ L R) ≤ 1 / 100) {s' : Flows (Fl rnd)} {p : Fin 4 → Fl rnd}
    (hrun : pieces g pts (s0.setQuadPoints q) = .ok (s', p)) (e : Fin 4) :
    |(p e).val - projAt (X 0) (X (pts.length - 1)) e| ≤ 5 * (projError u (indexError u β Δ ρ L R) + 2 * u) := by
  have hu0 := h.rounds.rel
  have hu := h.unit
  set ε := projError u (indexError u β Δ ρ L R) with hε
  have hε0 : 0 ≤ ε + 2 * u := by
    obtain ⟨x0, n0⟩ := hX 0 (by omega)
    obtain ⟨da, fa, e1, q1, i1, m1⟩ := find_fl h hc (flQuad_set (flowsReached_finder g h0) (q := q)) (pts.getD 0 (0, 0)) (X 0) x0 (by
      intro k
      match k with
      | 0 => exact n0.1
      | 1 => exact n0.2)
    have := (abs_nonneg _).trans (m1 0)
    rw [hε]; unfold projError; linarith
  obtain ⟨⟨s1, p1⟩, e1, hq1, hacc⟩ := forN_inv
    (fun i (s : Flows (Fl rnd) × (Fin 4 → Fl rnd)) => FlQuad q s.1.finder ∧
      ∀ e, |(s.2 e).val - projAt (X 0) (X i) e| ≤ i * (ε + 2 * u))
    (fun i (s : Flows (Fl rnd) × (Fin 4 → Fl rnd)) => do
      let a ← vget pts i
      let b ← vget pts (i + 1)
      let (f, _) ← (s.1.setLinePoints a b).computeProjections g
      let p0 ← f.getProjection 0
      let p1 ← f.getProjection 1
      let p2 ← f.getProjection 2
      let p3 ← f.getProjection 3
      return (f, fun e => match e with | 0 => s.2 0 + p0 | 1 => s.2 1 + p1 | 2 => s.2 2 + p2 | 3 => s.2 3 + p3))
    (pts.length - 1) (s0.setQuadPoints q, fun _ => 0) ⟨flQuad_set (flowsReached_finder g h0), fun e => by
      rw [projAt_self]; simp [Fl.zero_val]⟩ (by
      rintro i ⟨s, acc⟩ hi ⟨hq, ha⟩
      dsimp only at hq ha
      set a := pts.getD i (0, 0) with hpa
      set b := pts.getD (i + 1) (0, 0) with hpb
      have va : vget pts i = .ok a := vget_eq_ok.mpr (by
        rw [hpa, List.getD_eq_getElem?_getD, List.getElem?_eq_getElem (by omega)]; rfl)
      have vb : vget pts (i + 1) = .ok b := vget_eq_ok.mpr (by
        rw [hpb, List.getD_eq_getElem?_getD, List.getElem?_eq_getElem (by omega)]; rfl)
      obtain ⟨x1, m1⟩ := hX i (by omega)
      obtain ⟨x2, m2⟩ := hX (i + 1) (by omega)
      obtain ⟨da, fa, e1, q1, i1, n1⟩ := find_fl h hc hq a (X i) x1 (by
        intro k
        match k with
        | 0 => exact m1.1
        | 1 => exact m1.2)
      obtain ⟨db, fb, e2, q2, i2, n2⟩ := find_fl h hc q1 b (X (i + 1)) x2 (by
        intro k
        match k with
        | 0 => exact m2.1
        | 1 => exact m2.2)
      have hcp := (project_eq g s a b _ _ _ _ _ _ e1 e2).2
      refine ⟨_, bind_eq va (bind_eq vb (bind_eq hcp (bind_eq rfl (bind_eq rfl (bind_eq rfl (bind_eq rfl rfl)))))), q2, ?_⟩
      have hp : ∀ e, |(projOf da db e).val - projAt (X i) (X (i + 1)) e| ≤ ε := by
        intro e
        have a1 := proj_round h.rounds ⟨h.ints.mono, fun k hk => h.ints.int k (by omega)⟩ h.half h.unit da db i1 i2 e
        have a2 := projAt_near x1 x2 i1 i2 n1 n2 e
        have := abs_sub_le (projOf da db e).val (projAt (vals da) (vals db) e) (projAt (X i) (X (i + 1)) e)
        rw [hε]; unfold projError
        linarith
      have hsum : ∀ e, |(acc e + projOf da db e).val - projAt (X 0) (X (i + 1)) e| ≤ ((i + 1 : Nat) : ℝ) * (ε + 2 * u) := by
        intro e
        have h1 := ha e
        have h2 := hp e
        have h3 := hadd i (by omega) e
        have h4 := projAt_le (hX 0 (by omega)).1 x2 e
        have hi5 : (i : ℝ) ≤ 4 := by exact_mod_cast (show i ≤ 4 by omega)
        have hb : (i : ℝ) * (ε + 2 * u) ≤ 4 * (ε + 2 * u) := mul_le_mul_of_nonneg_right hi5 hε0
        have h5 : |(acc e).val + (projOf da db e).val - projAt (X 0) (X (i + 1)) e| ≤ i * (ε + 2 * u) + ε := by
          rw [← h3, show (acc e).val + (projOf da db e).val - (projAt (X 0) (X i) e + projAt (X i) (X (i + 1)) e) =
            ((acc e).val - projAt (X 0) (X i) e) + ((projOf da db e).val - projAt (X i) (X (i + 1)) e) by ring]
          exact (abs_add_le _ _).trans (add_le_add h1 h2)
        have h6 : |(acc e).val + (projOf da db e).val| ≤ 2 := by
          have := abs_add_le ((acc e).val + (projOf da db e).val - projAt (X 0) (X (i + 1)) e) (projAt (X 0) (X (i + 1)) e)
          rw [sub_add_cancel] at this
          linarith
        have h7 := rnd_near h.rounds ((acc e).val + (projOf da db e).val)
        have h8 := mul_le_mul_of_nonneg_left h6 hu0
        have h9 := abs_sub_le (rnd ((acc e).val + (projOf da db e).val)) ((acc e).val + (projOf da db e).val) (projAt (X 0) (X (i + 1)) e)
        rw [Fl.add_val]
        push_cast
        linarith
      intro e
      match e with
      | 0 => exact hsum 0
      | 1 => exact hsum 1
      | 2 => exact hsum 2
      | 3 => exact hsum 3)
  have : pieces g pts (s0.setQuadPoints q) = .ok (s1, p1) := e1
  rw [hrun] at this
  simp only [Except.ok.injEq, Prod.mk.injEq] at this
  rw [this.2]
  have hn : ((pts.length - 1 : Nat) : ℝ) ≤ 5 := by exact_mod_cast (show pts.length - 1 ≤ 5 by omega)
  exact (hacc e).trans (mul_le_mul_of_nonneg_right hn hε0)

/-! ### One cell -/

theorem projOf_projAt (x y : Fin 2 → ℝ) : projOf x y = projAt x y := by
  funext e
  have : (1 : ℝ) / (1 + 1) = 1 / 2 := by norm_num
  fin_cases e <;> simp only [projOf, projAt, this, Fin.zero_eta, Fin.mk_one, Fin.reduceFinMk] <;> ring

theorem projAt_collinear {α w : Fin 2 → ℝ} {r s t : ℝ} (e : Fin 4) :
    projAt (fun k => α k + r * w k) (fun k => α k + s * w k) e + projAt (fun k => α k + s * w k) (fun k => α k + t * w k) e =
      projAt (fun k => α k + r * w k) (fun k => α k + t * w k) e := by
  fin_cases e <;> simp only [projAt, Fin.zero_eta, Fin.mk_one, Fin.reduceFinMk] <;> ring

/-- The displacement in index coordinates. -/
theorem cellVector_le (hΔ : 0 < Δ) (hL : 0 < L) {q : Fin 4 → ℝ × ℝ} (h : FairCell Δ L R q) {w : ℝ × ℝ} (hw : |w.1| ≤ L ∧ |w.2| ≤ L) :
    |(cellVector q w).1| ≤ 2 / Δ ∧ |(cellVector q w).2| ≤ 2 / Δ := by
  have hd : Δ * L ^ 2 ≤ |(q 1 - q 0).1 * (q 3 - q 0).2 - (q 1 - q 0).2 * (q 3 - q 0).1| := by
    refine h.area.trans (le_of_eq ?_)
    congr 1
  have hp : 0 < Δ * L ^ 2 := by positivity
  have num : ∀ {x y z t : ℝ}, |x| ≤ L → |y| ≤ L → |z| ≤ L → |t| ≤ L →
      |(x * y - z * t) / ((q 1 - q 0).1 * (q 3 - q 0).2 - (q 1 - q 0).2 * (q 3 - q 0).1)| ≤ 2 / Δ := by
    intro x y z t h1 h2 h3 h4
    rw [abs_div, div_le_div_iff₀ (hp.trans_le hd) hΔ]
    have a1 : |x * y| ≤ L * L := by rw [abs_mul]; exact mul_le_mul h1 h2 (abs_nonneg _) hL.le
    have a2 : |z * t| ≤ L * L := by rw [abs_mul]; exact mul_le_mul h3 h4 (abs_nonneg _) hL.le
    have a3 := (abs_sub (x * y) (z * t)).trans (add_le_add a1 a2)
    have a4 := mul_le_mul_of_nonneg_right a3 hΔ.le
    nlinarith
  exact ⟨num hw.1 h.side3.2 hw.2 h.side3.1, num h.side1.1 hw.2 h.side1.2 hw.1⟩

theorem inside_icc {q : Fin 4 → ℝ × ℝ} {a b : ℝ × ℝ} {lo hi : ℝ} (h1 : IsLeast (insideParams q a b) lo)
    (h2 : IsGreatest (insideParams q a b) hi) : insideParams q a b = Set.Icc lo hi := by
  ext t
  constructor
  · intro ht; exact ⟨h1.2 ht, h2.2 ht⟩
  · rintro ⟨t1, t2⟩
    refine ⟨h1.1.1.trans t1, t2.trans h2.1.2.1, ?_⟩
    rcases eq_or_lt_of_le (t1.trans t2) with he | hlt
    · obtain rfl : t = lo := le_antisymm (by rw [he]; exact t2) t1
      exact h1.1.2.2
    · have hc : Convex ℝ (quadRegion q) := convex_convexHull ℝ _
      have hd : 0 < hi - lo := by linarith
      have := hc h1.1.2.2 h2.1.2.2 (a := (hi - t) / (hi - lo)) (b := (t - lo) / (hi - lo)) (by apply div_nonneg <;> linarith)
        (by apply div_nonneg <;> linarith) (by field_simp; ring)
      convert this using 1
      have e1 : (hi - t) / (hi - lo) = 1 - (t - lo) / (hi - lo) := by field_simp; ring
      have e2 : t = lo + (t - lo) / (hi - lo) * (hi - lo) := by field_simp; ring
      set r := (t - lo) / (hi - lo)
      rw [e1, e2]
      ext <;> simp <;> ring

/-- The integral as projections. -/
theorem fieldIntegral_proj {q : Fin 4 → ℝ × ℝ} (E : Fin 4 → ℝ) {a b : ℝ × ℝ} {lo hi : ℝ} (h1 : IsLeast (insideParams q a b) lo)
    (h2 : IsGreatest (insideParams q a b) hi) :
    fieldIntegral q E a b = flowDot (projAt (coordX q (a + lo • (b - a))) (coordX q (a + hi • (b - a)))) E := by
  have hfi : fieldIntegral q E a b = ∫ t in insideParams q a b, (coef0 q E a b + coef1 q E a b * t) := by
    unfold fieldIntegral
    congr 1
    funext t
    exact edgeField_line q E a b t
  rw [hfi, inside_icc h1 h2, integral_Icc_linear (h2.2 h1.1), ← projOf_projAt, projOf_line]

/-- The size of the numbers on the edges. -/
noncomputable def size4 (E : Fin 4 → ℝ) : ℝ := |E 0| + |E 1| + |E 2| + |E 3|

theorem size4_nonneg (E : Fin 4 → ℝ) : 0 ≤ size4 E := by unfold size4; positivity

theorem coordX_near (hΔ : 0 < Δ) (hL : 0 < L) {q : Fin 4 → ℝ × ℝ} (h : FairCell Δ L R q) {a b : ℝ × ℝ} (hab : dist a b ≤ L) {s t τ : ℝ}
    (hst : |s - t| ≤ τ) (k : Fin 2) : |coordX q (a + s • (b - a)) k - coordX q (a + t • (b - a)) k| ≤ 2 * τ / Δ := by
  have d := abs_sub_le_dist a b
  obtain ⟨c1, c2⟩ := cellVector_le hΔ hL h (w := b - a) ⟨d.1.trans hab, d.2.trans hab⟩
  rw [coordX_line, coordX_line]
  have key : ∀ {c : ℝ}, |c| ≤ 2 / Δ → |coordX q a k + s * c - (coordX q a k + t * c)| ≤ 2 * τ / Δ := by
    intro c hc
    rw [show coordX q a k + s * c - (coordX q a k + t * c) = (s - t) * c by ring, abs_mul]
    refine (mul_le_mul hst hc (abs_nonneg _) ((abs_nonneg _).trans hst)).trans (le_of_eq ?_)
    ring
  split_ifs
  · exact key c1
  · exact key c2

theorem index_nonneg (h : SearchesFinely rnd g u β Δ ρ L R) (hR : 0 ≤ R) : 0 ≤ indexError u β Δ ρ L R := by
  have hu := h.rounds.rel
  have hβ := h.pos
  have hL := h.size
  have hΔ := h.shape
  have hρ := h.point
  have h1 : 0 ≤ coordError u := by
    unfold coordError
    have := one_le_pow₀ (show (1 : ℝ) ≤ 1 + u by linarith) (n := 11)
    linarith
  have h2 : 0 ≤ (1 + u) ^ 2 - 1 := by nlinarith
  have h3 : 0 ≤ slopeError u L R := by unfold slopeError; positivity
  have h4 : 0 ≤ offsetError u ρ L R := by unfold offsetError; positivity
  have h5 : 0 ≤ matrixError u β L R := by unfold matrixError; positivity
  unfold indexError
  positivity

/-- What a cell adds, and when something is stored. -/
theorem cell_rounded (hf : SolvesLine rnd g u β Δ) (hs : SearchesFinely rnd g u β Δ (flowPointError u L R) L R)
    (hpe : projError u (indexError u β Δ (flowPointError u L R) L R) ≤ 1 / 100) {srt : List (Fl rnd) → List (Fl rnd)} (hsrt : ∀ l, SortsTo l (srt l))
    (hl : FairFlow Δ L R (valQuad q) (valPt a) (valPt b)) {k : Nat} {l : List (Nat × (Fin 4 → Fl rnd))} (hrun : CellRun g srt q a b k l) :
    (∀ E, |(l.map fun c => flowDot (fun e => (c.2 e).val) E).sum - fieldIntegral (valQuad q) E (valPt a) (valPt b)| ≤
      cellFlowError u β Δ L R * size4 E) ∧
    (∀ c ∈ l, c.1 = k ∧ ∀ e, |(c.2 e).val| ≤ 2) ∧ l.length ≤ 1 ∧
    ((∃ s ∈ insideParams (valQuad q) (valPt a) (valPt b), ∃ t ∈ insideParams (valQuad q) (valPt a) (valPt b), lineTol ≤ |s - t|) → l ≠ []) := by
  have hL := hs.size
  have hΔ := hs.shape
  have hlt := lineTol_pos
  have hu0 := hs.rounds.rel
  have hpar := fair_parallelogram hΔ hL hl.cell
  set Q := valQuad q with hQ
  set A := valPt a with hA
  set B := valPt b with hB
  set lam := srt (collectedL g q a b) with hlam
  have hmemiff : ∀ x, x ∈ lam ↔ x ∈ collectedL g q a b := fun x => (hsrt _).1.mem_iff
  have hT : ∀ x : Fl rnd, ∃ t : ℝ, x ∈ lam → t ∈ insideParams Q A B ∧ |x.val - t| ≤ 2 / 5 * lineTol := by
    intro x
    by_cases hx : x ∈ lam
    · obtain ⟨t, h1, h2⟩ := collected_inside hf hL hl ((hmemiff x).mp hx)
      exact ⟨t, fun _ => ⟨h1, h2⟩⟩
    · exact ⟨0, fun h => absurd h hx⟩
  choose T hT using hT
  have hlen6 : lam.length ≤ 6 := by rw [hlam, (hsrt _).1.length_eq]; exact collectedL_length
  have hcoord : ∀ t ∈ insideParams Q A B, InCell (coordX Q (A + t • (B - A))) ∧ A + t • (B - A) = pointAt Q (coordX Q (A + t • (B - A))) := by
    intro t ht
    obtain ⟨x, hx, ex⟩ := region_at hpar ht.2.2
    rw [ex, coordX_at hpar]
    exact ⟨hx, rfl⟩
  have hidx : 0 ≤ indexError u β Δ (flowPointError u L R) L R := index_nonneg hs ((abs_nonneg _).trans hl.start.1)
  have hproj : 0 ≤ 5 * (projError u (indexError u β Δ (flowPointError u L R) L R) + 2 * u) := by unfold projError; positivity
  have hu14 := hs.unit
  rcases (insideParams Q A B).eq_empty_or_nonempty with hemp | hne
  · have hnil : lam = [] := by
      rw [List.eq_nil_iff_forall_not_mem]
      intro x hx
      have := (hT x hx).1
      rw [hemp] at this
      exact this
    have hl0 : l = [] := by
      rcases hrun with ⟨-, h2, -⟩ | ⟨-, h⟩
      · rw [← hlam, hnil] at h2; simp at h2
      · exact h
    subst hl0
    refine ⟨fun E => ?_, by simp, by simp, ?_⟩
    · have : fieldIntegral Q E A B = 0 := by unfold fieldIntegral; rw [hemp]; simp
      rw [this]
      simp only [List.map_nil, List.sum_nil, sub_zero, abs_zero]
      refine mul_nonneg ?_ (size4_nonneg E)
      unfold cellFlowError
      have : 0 ≤ 24 / 5 * lineTol / Δ := by positivity
      linarith
    · rintro ⟨s, hs, -⟩
      rw [hemp] at hs
      exact absurd hs (Set.notMem_empty _)
  obtain ⟨lo, hlo⟩ := (inside_compact Q A B).exists_isLeast hne
  obtain ⟨hi, hhi⟩ := (inside_compact Q A B).exists_isGreatest hne
  obtain ⟨x0, m0, d0⟩ := flow_ends hf hL hl (Or.inl hlo)
  obtain ⟨x1, m1, d1⟩ := flow_ends hf hL hl (Or.inr hhi)
  have n0 := (hmemiff x0).mpr m0
  have n1 := (hmemiff x1).mpr m1
  have hlone : lam ≠ [] := List.ne_nil_of_mem n0
  have hpos : 1 ≤ lam.length := List.length_pos_of_ne_nil hlone
  have hx := List.head?_eq_some_head hlone
  have hy := List.getLast?_eq_some_getLast hlone
  obtain ⟨e0, e1, e2⟩ := flSorted_ends (sortsTo_fl (hsrt _)) hx hy
  have hff : ∀ E, fieldIntegral Q E A B = flowDot (projAt (coordX Q (A + lo • (B - A))) (coordX Q (A + hi • (B - A)))) E :=
    fun E => fieldIntegral_proj E hlo hhi
  have hshort : ∀ p p' : Fin 4 → ℝ, (∀ e, |p' e - p e| ≤ cellFlowError u β Δ L R) → ∀ E, |flowDot p' E - flowDot p E| ≤ cellFlowError u β Δ L R * size4 E :=
    fun p p' h E => flowDot_near h
  rcases hrun with ⟨-, h2, s0, s', p, hr0, hpc, rfl⟩ | ⟨hno, rfl⟩
  · rw [← hlam] at hpc
    set X : Nat → Fin 2 → ℝ := fun i => coordX Q (A + T (lam.getD i 0) • (B - A)) with hXdef
    have hgm : ∀ i < lam.length, lam.getD i 0 ∈ lam := by
      intro i hi
      rw [List.getD_eq_getElem?_getD, List.getElem?_eq_getElem hi]
      exact List.getElem_mem hi
    have hX : ∀ i < (lam.map (linePoint a b)).length, InCell (X i) ∧
        NearPt (flowPointError u L R) ((lam.map (linePoint a b)).getD i (0, 0)) (pointAt Q (X i)) := by
      intro i hi
      rw [List.length_map] at hi
      have hm := hgm i hi
      obtain ⟨t1, t2⟩ := hT _ hm
      obtain ⟨c1, c2⟩ := hcoord _ t1
      refine ⟨c1, ?_⟩
      have eg : (lam.map (linePoint a b)).getD i (0, 0) = linePoint a b (lam.getD i 0) := by
        simp [List.getD_eq_getElem?_getD, List.getElem?_eq_getElem hi]
      rw [eg, ← c2]
      have hb : |(lam.getD i 0).val| ≤ 11 / 10 := by
        have hl1 : lineTol ≤ 1 / 1000 := by rw [lineTol_val]; norm_num
        have := abs_le.mp t2
        rw [abs_le]
        constructor <;> linarith [t1.1, t1.2.1, this.1, this.2]
      have hn := linePoint_near hf.solves.rounds (hf.unit.trans (by norm_num)) hl.length hl.start (b := b) (a := a) hb
      have d := abs_sub_le_dist A B
      have key : ∀ {x z w d : ℝ}, |x - (z + (lam.getD i 0).val * d)| ≤ linePointError u L R → |d| ≤ L → |x - (z + T (lam.getD i 0) * d)| ≤ flowPointError u L R := by
        intro x z w d h1 h2
        have h3 : |((lam.getD i 0).val - T (lam.getD i 0)) * d| ≤ 2 / 5 * lineTol * L := by
          rw [abs_mul]; exact mul_le_mul t2 h2 (abs_nonneg _) (by positivity)
        have h4 := abs_add_le (x - (z + (lam.getD i 0).val * d)) (((lam.getD i 0).val - T (lam.getD i 0)) * d)
        rw [show x - (z + (lam.getD i 0).val * d) + ((lam.getD i 0).val - T (lam.getD i 0)) * d = x - (z + T (lam.getD i 0) * d) by ring] at h4
        unfold flowPointError
        linarith
      exact ⟨key (w := 0) hn.1 (d.1.trans hl.length), key (w := 0) hn.2 (d.2.trans hl.length)⟩
    have hline : ∀ t, coordX Q (A + t • (B - A)) = fun k => coordX Q A k + t * (if k = 0 then (cellVector Q (B - A)).1 else (cellVector Q (B - A)).2) :=
      fun t => funext fun k => coordX_line Q A B t k
    have hp := pieces_fl hs hl.cell hr0 (lam.map (linePoint a b)) (by rw [List.length_map]; exact hlen6) (by rw [List.length_map]; exact hpos) X hX
      (fun i _ e => by
        simp only [hXdef, hline]
        exact projAt_collinear e) hpe hpc
    rw [List.length_map] at hp
    have hhead : lam.getD 0 0 = lam.head hlone := by
      rw [List.getD_eq_getElem?_getD, List.getElem?_eq_getElem hpos, List.head_eq_getElem]; rfl
    have hlast : lam.getD (lam.length - 1) 0 = lam.getLast hlone := by
      rw [List.getD_eq_getElem?_getD, List.getElem?_eq_getElem (by omega), List.getLast_eq_getElem]; rfl
    have hn0 : |T (lam.getD 0 0) - lo| ≤ 4 / 5 * lineTol := by
      rw [hhead]
      obtain ⟨t1, t2⟩ := hT _ e0
      have a1 := hlo.2 t1
      have a2 := (e2 x0 n0).1
      rw [abs_le] at t2 d0 ⊢
      constructor <;> linarith [t2.1, t2.2, d0.1, d0.2]
    have hn1 : |T (lam.getD (lam.length - 1) 0) - hi| ≤ 4 / 5 * lineTol := by
      rw [hlast]
      obtain ⟨t1, t2⟩ := hT _ e1
      have a1 := hhi.2 t1
      have a2 := (e2 x1 n1).2
      rw [abs_le] at t2 d1 ⊢
      constructor <;> linarith [t2.1, t2.2, d1.1, d1.2]
    have i0 := hX 0 (by rw [List.length_map]; exact hpos)
    have i1 := hX (lam.length - 1) (by rw [List.length_map]; omega)
    have hpn := projAt_near (hcoord lo hlo.1).1 (hcoord hi hhi.1).1 i0.1 i1.1
      (fun k => coordX_near hΔ hL hl.cell hl.length hn0 k) (fun k => coordX_near hΔ hL hl.cell hl.length hn1 k)
    have hfin : ∀ e, |(p e).val - projAt (coordX Q (A + lo • (B - A))) (coordX Q (A + hi • (B - A))) e| ≤ cellFlowError u β Δ L R := by
      intro e
      have := abs_sub_le (p e).val (projAt (X 0) (X (lam.length - 1)) e) (projAt (coordX Q (A + lo • (B - A))) (coordX Q (A + hi • (B - A))) e)
      have h1 := hp e
      have h2 := hpn e
      have h3 : 3 * (2 * (4 / 5 * lineTol) / Δ) = 24 / 5 * lineTol / Δ := by ring
      unfold cellFlowError
      rw [h3] at h2
      linarith
    refine ⟨fun E => ?_, ?_, by simp, fun _ => by simp⟩
    · rw [hff E]
      simp only [List.map_cons, List.map_nil, List.sum_cons, List.sum_nil, add_zero]
      exact hshort _ _ hfin E
    · intro c hc
      rw [List.mem_singleton] at hc
      subst hc
      refine ⟨rfl, fun e => ?_⟩
      have h1 := hp e
      have h2 := projAt_le i0.1 i1.1 e
      have h3 := abs_add_le ((p e).val - projAt (X 0) (X (lam.length - 1)) e) (projAt (X 0) (X (lam.length - 1)) e)
      rw [sub_add_cancel] at h3
      have : u ≤ 1 / 100 := hu14.trans (by norm_num)
      show |(p e).val| ≤ 2
      linarith
  · have hov : overlapL q a b = true := by
      rw [overlapL_val]
      exact overlapL_of_mem (mem_segment_iff.mpr ⟨lo, hlo.1.1, hlo.1.2.1, rfl⟩) hlo.1.2.2
    have h1 : lam.length = 1 := by
      have : ¬ 2 ≤ lam.length := fun h2 => hno ⟨hov, h2⟩
      omega
    obtain ⟨z, hz⟩ := List.length_eq_one_iff.mp h1
    rw [hz, List.mem_singleton] at n0 n1
    rw [n0] at d0
    rw [n1] at d1
    have hclose : |hi - lo| ≤ 4 / 5 * lineTol := by
      rw [abs_le] at d0 d1 ⊢
      constructor <;> linarith [d0.1, d0.2, d1.1, d1.2]
    refine ⟨fun E => ?_, by simp, by simp, ?_⟩
    · rw [hff E]
      simp only [List.map_nil, List.sum_nil]
      have hz0 : (0 : ℝ) = flowDot (projAt (coordX Q (A + lo • (B - A))) (coordX Q (A + lo • (B - A)))) E := by
        unfold flowDot; simp only [projAt_self]; ring
      rw [hz0]
      refine hshort _ _ (fun e => ?_) E
      have hpn := projAt_near (hcoord lo hlo.1).1 (hcoord hi hhi.1).1 (hcoord lo hlo.1).1 (hcoord lo hlo.1).1 (ε := 2 * (4 / 5 * lineTol) / Δ)
        (fun k => by rw [sub_self, abs_zero]; positivity) (fun k => coordX_near hΔ hL hl.cell hl.length (by rw [abs_sub_comm]; exact hclose) k) e
      have h3 : 3 * (2 * (4 / 5 * lineTol) / Δ) = 24 / 5 * lineTol / Δ := by ring
      rw [h3] at hpn
      unfold cellFlowError
      linarith
    · rintro ⟨s, hs, t, ht, hst⟩
      exfalso
      have a1 := hlo.2 hs
      have a2 := hlo.2 ht
      have a3 := hhi.2 hs
      have a4 := hhi.2 ht
      have a5 : |s - t| ≤ hi - lo := by rw [abs_le]; constructor <;> linarith
      have := le_abs_self (hi - lo)
      linarith

end Sg.FlowInterp
