import Verif.Proof.CurvedSearch
import Verif.Proof.FlowExact
/-
The index search in a quadrilateral two sides of which are parallel.
-/
namespace Sg.Trap
open Sg Sg.LinearSolve Sg.Triangulate Sg.QuadIntersect Sg.FindPoint Sg.QuadFlows Sg.Spec Sg.Props Sg.Curved Sg.FlowInterp Sg.Plane

/-- Place along axis `k` in direction `d`, then along the other axis in direction `e`, over a length that changes from `r0` to `r1`. -/
structure Form (q : Quad ℝ) (k : Fin 2) (d e : P2) (r0 r1 : ℝ) : Prop where
  place : ∀ x, at_ q x = q 0 + x k • d + (x (k + 1) * (r0 + x k * (r1 - r0))) • e
  nonneg0 : 0 ≤ r0
  nonneg1 : 0 ≤ r1
  pos : 0 < r0 + r1
  indep : d.1 * e.2 - d.2 * e.1 ≠ 0

section
variable {q : Quad ℝ}

/-- The nodes as the finder takes them. -/
def nodes (q : Quad ℝ) (k : Fin 2) (j : Nat) : ℝ := comp (q (gridNode j)) k

theorem place_eq (q : Quad ℝ) {x : Fin 2 → ℝ} (hx : InGrid (fun _ => 2) x) : gridPlace (fun _ => 2) (nodes q) x = comp (at_ q x) := by
  funext i
  have h1 := interp_grid goodDims2 (nodes q) x hx i ((List.range (∏ _k : Fin 2, 2)).map (nodes q i)) (by simp) (by
    intro m hm
    rw [List.getElem?_map, List.getElem?_range (rowMajor_lt _ m hm), Option.map_some])
  have h2 := interp_bilin (fun c => comp (q c) i) x hx
  have e : (List.range (∏ _k : Fin 2, 2)).map (nodes q i) = gridList fun c => comp (q c) i := by
    simp [gridList, nodes]
  rw [e, h2, Except.ok.injEq] at h1
  rw [← h1]
  fin_cases i <;> rfl

theorem on_quad {f : Finder ℝ 2} (h : HasQuad q f) (d t : Fin 2 → ℝ) (ht : InGrid (fun _ => 2) t) :
    On (fun _ => 2) (nodes q) t (f.reset d (comp (at_ q t))) where
  ready := ready_reset _ _ _ h.ready
  shape := h.dims
  nodes := fun i => by
    show f.coords i = _
    rw [h.coords]
    simp [gridList, Trap.nodes]
  bounds := h.bounds
  per := fun i => by show f.indexPeriodicity i = 0; rw [h.per]
  target := (place_eq q ht).symm

/-- The first axis of the matrix of difference quotients, the second being fixed, and the other way round. -/
theorem jac_col (x : Fin 2 → ℝ) (hx : InGrid (fun _ => 2) x) (i j : Fin 2) (c : ℝ)
    (h : ∀ y, (∀ k, k ≠ j → y k = x k) → comp (at_ q y) i - comp (at_ q x) i = (y j - x j) * c) :
    jac (fun _ => 2) (nodes q) x i j = c := by
  have hlo := indsLo_inGrid (fun _ => 2) x hx j
  have hhi := indsHi_inGrid (fun _ => 2) goodDims2 x hx j
  show (gridPlace _ _ _ i - gridPlace _ _ _ i) / _ = c
  rw [place_eq q hlo, place_eq q hhi]
  have h1 := h (indsHi (fun _ => 2) x j) (fun k hk => by unfold indsHi; rw [if_neg hk])
  have h2 := h (indsLo x j) (fun k hk => by unfold indsLo; rw [if_neg hk])
  have hne : indsHi (fun _ => 2) x j j - indsLo x j j ≠ 0 := sub_ne_zero.2 (hi_sub_lo _ goodDims2 x hx j).ne'
  rw [div_eq_iff hne]
  linear_combination h1 - h2

theorem comp_add (p r : P2) (i : Fin 2) : comp (p + r) i = comp p i + comp r i := by fin_cases i <;> rfl
theorem comp_smul (c : ℝ) (p : P2) (i : Fin 2) : comp (c • p) i = c * comp p i := by fin_cases i <;> rfl

variable {k : Fin 2} {d e : P2} {r0 r1 : ℝ}

theorem succ_ne (k : Fin 2) : k + 1 ≠ k := by revert k; decide

theorem Form.comp_at (h : Form q k d e r0 r1) (x : Fin 2 → ℝ) (i : Fin 2) :
    comp (at_ q x) i = comp (q 0) i + x k * comp d i + x (k + 1) * (r0 + x k * (r1 - r0)) * comp e i := by
  rw [h.place, comp_add, comp_add, comp_smul, comp_smul]

theorem Form.jac_along (h : Form q k d e r0 r1) {x : Fin 2 → ℝ} (hx : InGrid (fun _ => 2) x) (i : Fin 2) :
    jac (fun _ => 2) (nodes q) x i k = comp d i + x (k + 1) * (r1 - r0) * comp e i := by
  refine jac_col x hx i k _ fun y hy => ?_
  rw [h.comp_at, h.comp_at, hy _ (succ_ne k)]
  ring

theorem Form.jac_across (h : Form q k d e r0 r1) {x : Fin 2 → ℝ} (hx : InGrid (fun _ => 2) x) (i : Fin 2) :
    jac (fun _ => 2) (nodes q) x i (k + 1) = (r0 + x k * (r1 - r0)) * comp e i := by
  refine jac_col x hx i (k + 1) _ fun y hy => ?_
  rw [h.comp_at, h.comp_at, hy _ (succ_ne k).symm]
  ring

theorem Form.det (h : Form q k d e r0 r1) {x : Fin 2 → ℝ} (hx : InGrid (fun _ => 2) x) (hr : r0 + x k * (r1 - r0) ≠ 0) :
    (jac (fun _ => 2) (nodes q) x).det ≠ 0 := by
  rw [Matrix.det_fin_two]
  have a := h.jac_along hx
  have b := h.jac_across hx
  have hi := h.indep
  have : ∀ i, comp d i = match i with | 0 => d.1 | 1 => d.2 := fun i => by fin_cases i <;> rfl
  have key : (r0 + x k * (r1 - r0)) * (d.1 * e.2 - d.2 * e.1) ≠ 0 := mul_ne_zero hr hi
  fin_cases k
  · have a0 := a 0
    have a1 := a 1
    have b0 := b 0
    have b1 := b 1
    simp only [Fin.zero_eta, zero_add, comp] at a0 a1 b0 b1
    rw [a0, a1, b0, b1]
    simp only [Fin.zero_eta] at key
    intro hz
    apply key
    linear_combination hz
  · have a0 := a 0
    have a1 := a 1
    have b0 := b 0
    have b1 := b 1
    have e2 : (1 : Fin 2) + 1 = 0 := rfl
    simp only [Fin.mk_one, e2, comp] at a0 a1 b0 b1
    rw [a0, a1, b0, b1]
    simp only [Fin.mk_one] at key
    intro hz
    apply key
    linear_combination -hz

theorem two_axes (k j : Fin 2) : j = k ∨ j = k + 1 := by revert k j; decide

theorem sum_axes (k : Fin 2) (f : Fin 2 → ℝ) : ∑ j, f j = f k + f (k + 1) := by
  rw [Fin.sum_univ_two]
  fin_cases k
  · rfl
  · exact add_comm _ _

theorem Form.change (h : Form q k d e r0 r1) {x t : Fin 2 → ℝ} (hx : InGrid (fun _ => 2) x) (ht : InGrid (fun _ => 2) t)
    (hr : r0 + x k * (r1 - r0) ≠ 0) :
    change (fun _ => 2) (nodes q) t x k = t k - x k ∧
    change (fun _ => 2) (nodes q) t x (k + 1) = (r0 + t k * (r1 - r0)) / (r0 + x k * (r1 - r0)) * (t (k + 1) - x (k + 1)) := by
  have hdet := h.det hx hr
  have hu : IsUnit (jac (fun _ => 2) (nodes q) x) := (Matrix.isUnit_iff_isUnit_det _).2 (isUnit_iff_ne_zero.2 hdet)
  set u : Fin 2 → ℝ := fun j => if j = k then t k - x k else
    (r0 + t k * (r1 - r0)) / (r0 + x k * (r1 - r0)) * (t (k + 1) - x (k + 1)) with hud
  have uk : u k = t k - x k := by simp [hud]
  have uk1 : u (k + 1) = (r0 + t k * (r1 - r0)) / (r0 + x k * (r1 - r0)) * (t (k + 1) - x (k + 1)) := by
    simp [hud, succ_ne k]
  have key : (jac (fun _ => 2) (nodes q) x).mulVec u = fun i => gridPlace (fun _ => 2) (nodes q) t i - gridPlace (fun _ => 2) (nodes q) x i := by
    funext i
    rw [place_eq q ht, place_eq q hx, Matrix.mulVec, dotProduct, sum_axes k, h.jac_along hx, h.jac_across hx, h.comp_at, h.comp_at, uk, uk1]
    have e1 : (r0 + x k * (r1 - r0)) * ((r0 + t k * (r1 - r0)) / (r0 + x k * (r1 - r0)) * (t (k + 1) - x (k + 1))) =
        (r0 + t k * (r1 - r0)) * (t (k + 1) - x (k + 1)) := by
      rw [← mul_assoc, mul_div_cancel₀ _ hr]
    linear_combination comp e i * e1
  have := Matrix.mulVec_injective_of_isUnit hu (key.trans (change_spec hdet).symm)
  rw [← this]
  exact ⟨uk, uk1⟩

theorem newton_eq (t x : Fin 2 → ℝ) (j : Fin 2) (v : ℝ) (h : x j + change (fun _ => 2) (nodes q) t x j = v) (h0 : 0 ≤ v) (h1 : v ≤ 1) :
    newton (fun _ => 2) (nodes q) t x j = v := by
  unfold newton
  rw [h]
  exact truncate_id 0 2 le_rfl (.inl rfl) v h0 (by norm_num; exact h1)

theorem distance_self (p : Fin 2 → ℝ) : distance p p = 0 := by simp [distance]

theorem Form.length_nonneg (h : Form q k d e r0 r1) {x : ℝ} (h0 : 0 ≤ x) (h1 : x ≤ 1) : 0 ≤ r0 + x * (r1 - r0) := by
  have := h.nonneg0
  have := h.nonneg1
  nlinarith

theorem Form.half (h : Form q k d e r0 r1) : r0 + 1 / (1 + 1) * (r1 - r0) ≠ 0 := by
  have := h.pos
  have e : r0 + 1 / (1 + 1) * (r1 - r0) = (r0 + r1) / 2 := by norm_num; ring
  rw [e]
  positivity

/-- A search in the quadrilateral for a point of it succeeds, in at most two steps. -/
theorem Form.search (h : Form q k d e r0 r1) {g : Gels ℝ} (hg : GelsContract g) {f : Finder ℝ 2} (hf : HasQuad q f) {t : Fin 2 → ℝ} (ht : InCell t) :
    ∃ x f', findIndices g f (at_ q t) = .ok (1, x, f') ∧ f'.iter ≤ 2 := by
  have htg : InGrid (fun _ => 2) t := inCell_inGrid ht
  set s := f.reset (fun _ => 1 / (1 + 1)) (comp (at_ q t)) with hs
  have hon : On (fun _ => 2) (nodes q) t s := on_quad hf _ t htg
  have hx : InGrid (fun _ => 2) s.dIndices := half_inGrid
  have sI : s.dIndices = fun _ => 1 / (1 + 1) := rfl
  have hr : r0 + s.dIndices k * (r1 - r0) ≠ 0 := by rw [sI]; exact h.half
  have hfuel : s.fuelOf = 8 + 1 + 1 := by
    show (max f.nitermax 1).toNat = _
    rw [hf.nitermax]; rfl
  have htol : (0 : ℝ) < f.tolpos := by rw [hf.tolpos]; exact flowTol_pos
  obtain ⟨s1, hn, on1, e1, e2, e3, e4, e5⟩ := next_grid g hg (by norm_num) goodDims2 t htg s hon hx (h.det hx hr)
  set y := newton (fun _ => 2) (nodes q) t s.dIndices with hy
  have hyg : InGrid (fun _ => 2) y := newton_inGrid goodDims2 t _
  have hyk : y k = t k := newton_eq t _ k (t k) (by rw [(h.change hx htg hr).1]; ring) (ht k).1 (ht k).2
  rw [place_eq q hyg, place_eq q htg] at hn
  set er := distance (comp (at_ q y)) (comp (at_ q t)) with her
  obtain ⟨code, s2, hfin⟩ : ∃ code s2, s1.finishStep er = (code, s2) := ⟨_, _, rfl⟩
  have on2 : On (fun _ => 2) (nodes q) t s2 := by
    have := on_finish t s1 er on1
    rw [hfin] at this; exact this
  obtain ⟨f1, f2, f3, f4, f5, f6, f7, f8, f9, f10, f11⟩ := finishStep_spec s1 _ _ _ hfin.symm
  rw [hfin] at hn
  have hit : s2.iter = 1 := by rw [f1, e2]; rfl
  have hlen : s2.errorHistory.length = 1 := by rw [f2, e3]; rfl
  have n2 : code ≠ -2 := fun hc => by have := (f11 hc).1; omega
  have n1 : code ≠ -1 := fun hc => by
    have := f10 hc
    rw [e4, hit] at this
    have : f.nitermax ≤ 1 := this
    rw [hf.nitermax] at this
    omega
  have out : ∀ c s', searchLoop g s.fuelOf s = .ok (c, s') → findIndices g f (at_ q t) = .ok (c, s'.dIndices, s') := by
    intro c s' e
    unfold findIndices
    simp only [bind, Except.bind, pure, Except.pure]
    rw [← hs, e]
  rcases f7 with hc | hc | hc | hc
  · subst hc
    refine ⟨_, s2, out 1 s2 ?_, by rw [hit]; norm_num⟩
    rw [hfuel]
    unfold searchLoop
    rw [hn]; rfl
  · subst hc
    have hbig := (f9 rfl).1
    rw [e5] at hbig
    have hbig : ¬ er < f.tolpos := hbig
    have s2I : s2.dIndices = y := f4.trans e1
    have hr2 : r0 + s2.dIndices k * (r1 - r0) ≠ 0 := by
      rw [s2I, hyk]
      intro hz
      apply hbig
      have : at_ q y = at_ q t := by rw [h.place, h.place, hyk, hz, mul_zero, mul_zero]
      rw [her, this, distance_self]
      exact htol
    have hx2 : InGrid (fun _ => 2) s2.dIndices := by rw [s2I]; exact hyg
    obtain ⟨s3, hn3, on3, e31, e32, e33, e34, e35⟩ := next_grid g hg (by norm_num) goodDims2 t htg s2 on2 hx2 (h.det hx2 hr2)
    obtain ⟨c1, c2⟩ := h.change hx2 htg hr2
    have hz : newton (fun _ => 2) (nodes q) t s2.dIndices = t := by
      funext j
      rcases (two_axes k j) with rfl | rfl
      · exact newton_eq t _ _ _ (by rw [c1]; ring) (ht _).1 (ht _).2
      · refine newton_eq t _ _ _ ?_ (ht _).1 (ht _).2
        rw [c2, s2I, hyk, div_self (by rw [s2I, hyk] at hr2; exact hr2)]
        ring
    rw [hz, distance_self] at hn3
    obtain ⟨code3, s4, hfin3⟩ : ∃ code s4, s3.finishStep 0 = (code, s4) := ⟨_, _, rfl⟩
    obtain ⟨k1, k2, k3, k4, k5, k6, k7, k8, k9, k10, k11⟩ := finishStep_spec s3 _ _ _ hfin3.symm
    rw [hfin3] at hn3
    have hit4 : s4.iter = 2 := by rw [k1, e32, hit]; rfl
    have hlen4 : s4.errorHistory.length = 2 := by rw [k2, e33, List.length_append, hlen]; rfl
    have hc3 : code3 = 1 := by
      rcases k7 with hc | hc | hc | hc
      · exact hc
      · exfalso
        apply (k9 hc).1
        rw [e35, f6, e5]
        exact htol
      · exfalso
        have := k10 hc
        rw [hit4, e34, f5, e4] at this
        have : f.nitermax ≤ 2 := this
        rw [hf.nitermax] at this
        omega
      · have := (k11 hc).1
        omega
    subst hc3
    refine ⟨_, s4, out 1 s4 ?_, by rw [hit4]⟩
    rw [hfuel]
    unfold searchLoop
    rw [hn]
    simp only [bind, Except.bind]
    rw [if_pos trivial]
    unfold searchLoop
    rw [hn3]; rfl
  · exact absurd hc n1
  · exact absurd hc n2

end
end Sg.Trap
