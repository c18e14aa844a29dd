import Verif.Proof.FairQuad
import Verif.Proof.Located
/-
Property C118: flows of a potential on grids of convex quadrilaterals, in exact arithmetic.
-/
namespace Sg.Props
open Sg Sg.LinearSolve Sg.Triangulate Sg.QuadIntersect Sg.FindPoint Sg.QuadLine Sg.QuadFlows Sg.FlowInterp Sg.Spec Sg.Plane Sg.Trap Sg.Fair

/-- **C118**: every point of a fair quadrilateral is the place of exactly one index position, and positions are not farther from each
other than `64` times the distance of their places over the length of the shortest side. -/
theorem C118_position (q : Quad ℝ) (hq : FairQuad q) (l : ℝ) (hl : 0 < l) (hs : ∀ i, l ≤ apart (q i) (q (i + 1))) :
    (∀ p ∈ quadRegion q, ∃! x, InCell x ∧ at_ q x = p) ∧
    ∀ x t, InCell x → InCell t → ∀ k, |x k - t k| ≤ 64 / l * apart (at_ q x) (at_ q t) := by
  have hn : ∀ x t, InCell x → InCell t → ∀ k, |x k - t k| ≤ 64 / l * apart (at_ q x) (at_ q t) := fun x t hx ht k => fair_near hq hl hs hx ht k
  refine ⟨fun p hp => ?_, hn⟩
  obtain ⟨x, hx, rfl⟩ := fair_region hq hp
  refine ⟨x, ⟨hx, rfl⟩, fun y ⟨hy, e⟩ => ?_⟩
  funext k
  have := hn y x hy hx k
  rw [e] at this
  have z : apart (at_ q x) (at_ q x) = 0 := by simp [apart]
  rw [z, mul_zero] at this
  exact sub_eq_zero.1 (abs_eq_zero.1 (le_antisymm this (abs_nonneg _)))

/-- **C118**, one quadrilateral: for any two points of a fair quadrilateral, after any history, the projections are computed with
code 0, and they give the flow of every potential between two points of it that are nearer to the given ones than `1e-10`. -/
theorem C118_projections (g : Gels ℝ) (hg : GelsContract g) (q : Quad ℝ) (hq : FairQuad q) (s0 s : Flows ℝ) (h0 : FlowsReached g s0)
    (h : FlowsAfter g (s0.setQuadPoints q) s) (a b : Pt ℝ) (ha : a ∈ quadRegion q) (hb : b ∈ quadRegion q) :
    ∃ p xa xb, project g s a b = .ok (0, p) ∧ InCell xa ∧ InCell xb ∧ apart (at_ q xa) a < 1 / 10 ^ 10 ∧
      apart (at_ q xb) b < 1 / 10 ^ 10 ∧ ∀ v, flowDot p (edgeDiff v) = bilin v xb - bilin v xa :=
  located_projections g hg q (fair_locates hq) s0 s h0 h a b ha hb

/-- How much the interpolant changes, from the differences along the edges. -/
theorem bilin_change (v : Fin 4 → ℝ) (E : ℝ) (hE : ∀ e, |edgeDiff v e| ≤ E) {x t : Fin 2 → ℝ} (hx : InCell x) (ht : InCell t) :
    |bilin v x - bilin v t| ≤ E * |x 0 - t 0| + E * |x 1 - t 1| := by
  have e : bilin v x - bilin v t = (x 0 - t 0) * ((1 - x 1) * edgeDiff v 0 + x 1 * edgeDiff v 1) +
      (x 1 - t 1) * ((1 - t 0) * edgeDiff v 2 + t 0 * edgeDiff v 3) := by
    simp only [bilin, edgeDiff]; ring
  have mean : ∀ c u w : ℝ, 0 ≤ c → c ≤ 1 → |u| ≤ E → |w| ≤ E → |(1 - c) * u + c * w| ≤ E := by
    intro c u w h0 h1 hu hw
    rw [abs_le] at *
    constructor <;> nlinarith
  rw [e]
  refine (abs_add_le _ _).trans ?_
  rw [abs_mul, abs_mul, mul_comm E, mul_comm E]
  exact add_le_add (mul_le_mul_of_nonneg_left (mean _ _ _ (hx 1).1 (hx 1).2 (hE 0) (hE 1)) (abs_nonneg _))
    (mul_le_mul_of_nonneg_left (mean _ _ _ (ht 0).1 (ht 0).2 (hE 2) (hE 3)) (abs_nonneg _))

section
variable (pert : Nat → Nat → Nat → ℝ) (g : Gels ℝ) (hg : GelsContract g) (srt : List ℝ → List ℝ)
  (hsrt : ∀ l, SortsTo l (srt l)) (n0 n1 : Nat) (h0 : 2 ≤ n0) (h1 : 2 ≤ n1) (hf : n0 * n1 ≤ 1073741824) (xs ys : List ℝ)
  (hx : n0 * n1 ≤ xs.length) (hy : n0 * n1 ≤ ys.length) (n : Nat) (hn : 1 ≤ n) (us vs : List ℝ) (hu : n ≤ us.length)
  (hv : n ≤ vs.length) (hq : ∀ i < n0 - 1, ∀ j < n1 - 1, FairQuad (gridQuad n1 xs ys i j))
  (l : ℝ) (hl : 0 < l) (hs : ∀ i < n0 - 1, ∀ j < n1 - 1, ∀ k, l ≤ apart (gridQuad n1 xs ys i j k) (gridQuad n1 xs ys i j (k + 1)))
  (phi : Nat → Nat → ℝ) (x y : List ℝ) (hp : PotentialData n0 n1 phi x y) (E : ℝ) (hE : ∀ w ∈ x ++ y, |w| ≤ E)
  (d : List ℝ) (hd : n - 1 ≤ d.length) (Φ : ℝ × ℝ → ℝ)
  (hΦ : ∀ i < n0 - 1, ∀ j < n1 - 1, ∀ z, InCell z → Φ (at_ (gridQuad n1 xs ys i j) z) = bilin (cellPhi phi i j) z)

include hg hsrt h0 h1 hf hx hy hn hu hv hq hl hs hp hE hd hΦ

/-- **C118**, a segment of a line.  The cells of the grid are fair quadrilaterals with sides not shorter than `l`, the edge data are
differences of a nodal potential and at most `E`, and `Φ` is the interpolant of the potential in every cell.  If the segment is
covered by cells, no two of which share more than a point of it, and no decision is closer than the tolerance of the
intersector, the flow is the difference of `Φ` between the ends of the segment, up to `2 * 128 E / l * 1e-10` for each cell that
the segment meets. -/
theorem C118_potential :
    ∃ d', flowWith pert g srt [] n0 n1 xs ys n us vs 1 x y d = .ok d' ∧
      ∀ k < n - 1, ∀ a b, a = movedNode pert n us vs k → b = movedNode pert n us vs (k + 1) →
        (∀ p ∈ segment ℝ a b, ∃ i < n0 - 1, ∃ j < n1 - 1, p ∈ quadRegion (gridQuad n1 xs ys i j)) →
        (∀ i < n0 - 1, ∀ j < n1 - 1, ∀ i' < n0 - 1, ∀ j' < n1 - 1, (i, j) ≠ (i', j') →
          (insideParams (gridQuad n1 xs ys i j) a b ∩ insideParams (gridQuad n1 xs ys i' j') a b).Subsingleton) →
        (∀ i < n0 - 1, ∀ j < n1 - 1, ClearLine (gridQuad n1 xs ys i j) a b) →
        ∃ w, d'[k]? = some w ∧ |w - (Φ b - Φ a)| ≤
          (Set.ncard {ij : Nat × Nat | ij.1 < n0 - 1 ∧ ij.2 < n1 - 1 ∧ (insideParams (gridQuad n1 xs ys ij.1 ij.2) a b).Nonempty} : ℝ) *
            (2 * (128 * E / l * (1 / 10 ^ 10))) := by
  obtain ⟨d', e, hd'⟩ := located_flow pert g hg srt hsrt n0 n1 h0 h1 hf xs ys hx hy n hn us vs hu hv
    (fun i hi j hj => fair_locates (hq i hi j hj)) phi x y hp d hd
  refine ⟨d', e, fun k hk a b ha hb hcov honce hclear => ?_⟩
  obtain ⟨w, h2, h3⟩ := hd' k hk a b ha hb hcov honce hclear (fun _ _ => 0) (fun t => Φ (a + t • (b - a))) (128 * E / l * (1 / 10 ^ 10)) (by
    intro i hi j hj t ht z hz hap
    obtain ⟨z', hz', e'⟩ := fair_region (hq i hi j hj) ht.2.2
    have hge : ∀ (L : List ℝ) (m : Nat), m < L.length → (∀ w ∈ L, |w| ≤ E) → |L.getD m 0| ≤ E := by
      intro L m hm hL
      rw [List.getD_eq_getElem?_getD, List.getElem?_eq_getElem hm, Option.getD_some]
      exact hL _ (List.getElem_mem hm)
    have hed : ∀ e, |edgeDiff (cellPhi phi i j) e| ≤ E := by
      have hxE : ∀ w ∈ x, |w| ≤ E := fun w hw => hE w (List.mem_append_left _ hw)
      have hyE : ∀ w ∈ y, |w| ≤ E := fun w hw => hE w (List.mem_append_right _ hw)
      have lx : ∀ j' < n1, xEdge n1 i j' < x.length := by
        intro j' hj'
        refine lt_of_lt_of_le ?_ hp.lenx
        unfold xEdge
        have := Nat.mul_le_mul_right n1 (show i + 1 ≤ n0 - 1 by omega)
        rw [Nat.add_mul] at this; omega
      have ly : ∀ i' < n0, yEdge n1 i' j < y.length := by
        intro i' hi'
        refine lt_of_lt_of_le ?_ hp.leny
        unfold yEdge
        have := Nat.mul_le_mul_right (n1 - 1) (show i' + 1 ≤ n0 by omega)
        rw [Nat.add_mul] at this; omega
      intro e
      fin_cases e
      · have := hge x _ (lx j (by omega)) hxE
        rw [hp.xs i j hi (by omega)] at this; exact this
      · have := hge x _ (lx (j + 1) (by omega)) hxE
        rw [hp.xs i (j + 1) hi (by omega)] at this; exact this
      · have := hge y _ (ly i (by omega)) hyE
        rw [hp.ys i j (by omega) hj] at this; exact this
      · have := hge y _ (ly (i + 1) (by omega)) hyE
        rw [hp.ys (i + 1) j (by omega) hj] at this; exact this
    have hE0 : 0 ≤ E := (abs_nonneg _).trans (hed 0)
    rw [e'] at hap ⊢
    rw [add_zero, hΦ i hi j hj z' hz']
    refine (bilin_change _ E hed hz hz').trans ?_
    have near : ∀ k, E * |z k - z' k| ≤ E * (64 / l * (1 / 10 ^ 10)) := fun k =>
      mul_le_mul_of_nonneg_left ((fair_near (hq i hi j hj) hl (hs i hi j hj) hz hz' k).trans
        (mul_le_mul_of_nonneg_left hap.le (by positivity))) hE0
    refine (add_le_add (near 0) (near 1)).trans (le_of_eq ?_)
    ring)
  refine ⟨w, h2, ?_⟩
  simpa using h3

/-- **C118**, a line: if this holds for all its segments, the total flow is the difference of `Φ` between its ends, so zero for a closed
line, up to this bound for each segment and cell. -/
theorem C118_line
    (hcov : ∀ k < n - 1, ∀ p ∈ segment ℝ (movedNode pert n us vs k) (movedNode pert n us vs (k + 1)),
      ∃ i < n0 - 1, ∃ j < n1 - 1, p ∈ quadRegion (gridQuad n1 xs ys i j))
    (honce : ∀ k < n - 1, ∀ i < n0 - 1, ∀ j < n1 - 1, ∀ i' < n0 - 1, ∀ j' < n1 - 1, (i, j) ≠ (i', j') →
      (insideParams (gridQuad n1 xs ys i j) (movedNode pert n us vs k) (movedNode pert n us vs (k + 1)) ∩
        insideParams (gridQuad n1 xs ys i' j') (movedNode pert n us vs k) (movedNode pert n us vs (k + 1))).Subsingleton)
    (hclear : ∀ k < n - 1, ∀ i < n0 - 1, ∀ j < n1 - 1,
      ClearLine (gridQuad n1 xs ys i j) (movedNode pert n us vs k) (movedNode pert n us vs (k + 1))) :
    ∃ d', flowWith pert g srt [] n0 n1 xs ys n us vs 1 x y d = .ok d' ∧
      |(d'.take (n - 1)).sum - (Φ (movedNode pert n us vs (n - 1)) - Φ (movedNode pert n us vs 0))| ≤
        ((n - 1 : Nat) : ℝ) * ((((n0 - 1) * (n1 - 1) : Nat) : ℝ) * (2 * (128 * E / l * (1 / 10 ^ 10)))) := by
  obtain ⟨d', e, hd'⟩ := C118_potential pert g hg srt hsrt n0 n1 h0 h1 hf xs ys hx hy n hn us vs hu hv hq l hl hs phi x y hp E hE d hd Φ hΦ
  refine ⟨d', e, ?_⟩
  have hx0 : x ≠ [] := by
    intro hx0
    have := hp.lenx
    have h1' : 1 * 1 ≤ (n0 - 1) * n1 := Nat.mul_le_mul (by omega) (by omega)
    rw [hx0, List.length_nil] at this
    omega
  obtain ⟨x0, xr, rfl⟩ := List.exists_cons_of_ne_nil hx0
  have hE0 : 0 ≤ E := (abs_nonneg _).trans (hE x0 (by simp))
  set B := ((((n0 - 1) * (n1 - 1) : Nat) : ℝ) * (2 * (128 * E / l * (1 / 10 ^ 10)))) with hB
  have hk : ∀ k < n - 1, ∃ w, d'[k]? = some w ∧ |w - (Φ (movedNode pert n us vs (k + 1)) - Φ (movedNode pert n us vs k))| ≤ B := by
    intro k hk
    obtain ⟨w, h2, h3⟩ := hd' k hk _ _ rfl rfl (hcov k hk) (honce k hk) (hclear k hk)
    refine ⟨w, h2, h3.trans ?_⟩
    rw [hB]
    refine mul_le_mul_of_nonneg_right ?_ (by positivity)
    rw [Nat.cast_le]
    set T := {ij : Nat × Nat | ij.1 < n0 - 1 ∧ ij.2 < n1 - 1 ∧
      (insideParams (gridQuad n1 xs ys ij.1 ij.2) (movedNode pert n us vs k) (movedNode pert n us vs (k + 1))).Nonempty} with hT
    have hsub : T ⊆ ((Finset.range (n0 - 1) ×ˢ Finset.range (n1 - 1) : Finset (Nat × Nat)) : Set (Nat × Nat)) := by
      rintro ⟨i, j⟩ ⟨hi, hj, -⟩
      simp only [Finset.coe_product, Finset.coe_range, Set.mem_prod, Set.mem_Iio]
      exact ⟨hi, hj⟩
    have := Set.ncard_le_ncard hsub (Finset.finite_toSet _)
    rwa [Set.ncard_coe_finset, Finset.card_product, Finset.card_range, Finset.card_range] at this
  have hsum : ∀ m ≤ n - 1, |(d'.take m).sum - (Φ (movedNode pert n us vs m) - Φ (movedNode pert n us vs 0))| ≤ (m : ℝ) * B := by
    intro m
    induction m with
    | zero => intro _; simp
    | succ m ih =>
      intro hm
      obtain ⟨w, hw, hle⟩ := hk m (by omega)
      have := ih (by omega)
      rw [List.take_add_one, List.sum_append, hw]
      simp only [Option.toList_some, List.sum_cons, List.sum_nil, add_zero]
      push_cast
      rw [abs_le] at *
      constructor <;> linarith [this.1, this.2, hle.1, hle.2]
  exact hsum _ le_rfl

end

/-! ### Cases -/

/-- Squares of lengths with integer nodes. -/
def zsq (p r : ℤ × ℤ) : ℤ := (p.1 - r.1) ^ 2 + (p.2 - r.2) ^ 2

/-- The conditions of a fair quadrilateral, for integer nodes. -/
def ZFair (z : Fin 4 → ℤ × ℤ) : Prop :=
  ZConvex z ∧ (∀ i j, |zcross (z i) (z (i + 1)) (z (i + 2))| ≤ 16 * |zcross (z j) (z (j + 1)) (z (j + 2))|) ∧
  (∀ i, zsq (z i) (z (i + 1)) * zsq (z (i + 1)) (z (i + 2)) ≤ 4 * zcross (z i) (z (i + 1)) (z (i + 2)) ^ 2) ∧
  ∀ i, zsq (z i) (z (i + 1)) ≤ 10000

instance (z : Fin 4 → ℤ × ℤ) : Decidable (ZFair z) := by unfold ZFair; infer_instance

theorem zfair {z : Fin 4 → ℤ × ℤ} (h : ZFair z) : FairQuad (zquad z) := by
  obtain ⟨h1, h2, h3, h4⟩ := h
  have ea : ∀ i j k, area2 (zquad z i) (zquad z j) (zquad z k) = ((zcross (z i) (z j) (z k) : ℤ) : ℝ) := by
    intro i j k; simp [area2, zquad, zcross]
  have es : ∀ i j, apart (zquad z i) (zquad z j) = Real.sqrt ((zsq (z i) (z j) : ℤ) : ℝ) := by
    intro i j; simp [apart, zquad, zsq]
  have hz : ∀ i j, (0 : ℝ) ≤ ((zsq (z i) (z j) : ℤ) : ℝ) := by
    intro i j
    have : 0 ≤ zsq (z i) (z j) := by unfold zsq; positivity
    exact_mod_cast this
  refine ⟨zquad_convex h1, fun i j => ?_, fun i => ?_, fun i => ?_⟩
  · rw [ea, ea]
    exact_mod_cast h2 i j
  · rw [ea, es, es, ← Real.sqrt_mul (hz _ _), Real.sqrt_le_left (by positivity), mul_pow, sq_abs]
    have := h3 i
    norm_num
    exact_mod_cast this
  · rw [es, Real.sqrt_le_left (by norm_num)]
    have := h4 i
    norm_num
    exact_mod_cast this

/-- Two fair quadrilaterals that share a side. -/
def zFairA : Fin 4 → ℤ × ℤ := ![(0, 0), (6, 0), (5, 4), (1, 6)]
def zFairB : Fin 4 → ℤ × ℤ := ![(6, 0), (12, 1), (11, 6), (5, 4)]

/-- None of the sides of these are parallel. -/
example : FairQuad (zquad zFairA) ∧ ¬ Trapezoid (zquad zFairA) ∧ FairQuad (zquad zFairB) ∧ ¬ Trapezoid (zquad zFairB) := by
  refine ⟨zfair (by decide), fun h => ?_, zfair (by decide), fun h => ?_⟩
  · rcases h.parallel with h | h <;> simp [Parallel, zquad, zFairA] at h <;> norm_num at h
  · rcases h.parallel with h | h <;> simp [Parallel, zquad, zFairB] at h <;> norm_num at h

/-- The hypotheses of `C118_projections` are met by two nodes. -/
example : ∃ p xa xb, project refGels ((Flows.new : Flows ℝ).setQuadPoints (zquad zFairA)) (6, 0) (1, 6) = .ok (0, p) ∧
    InCell xa ∧ InCell xb ∧ ∀ v, flowDot p (edgeDiff v) = bilin v xb - bilin v xa := by
  obtain ⟨p, xa, xb, h, h1, h2, -, -, hv⟩ := C118_projections refGels refGels_contract (zquad zFairA) (zfair (by decide)) Flows.new _ ⟨[], rfl⟩
    ⟨[], by simp, rfl⟩ (6, 0) (1, 6) (by convert mem_region (zquad zFairA) 1 using 1; simp [zquad, zFairA])
    (by convert mem_region (zquad zFairA) 3 using 1; simp [zquad, zFairA])
  exact ⟨p, xa, xb, h, h1, h2, hv⟩

/-- The side of the line through the common side of the two. -/
def zSide (p : ℝ × ℝ) : ℝ := 4 * p.1 + p.2 - 24

theorem zSide_A {p : ℝ × ℝ} (h : p ∈ quadRegion (zquad zFairA)) : zSide p ≤ 0 := by
  have := half_plane (q := zquad zFairA) (d := (-1, 4)) (o := (6, 0)) (fun i => by fin_cases i <;> simp [cr, zquad, zFairA] <;> norm_num) h
  simp only [cr, Prod.fst_sub, Prod.snd_sub] at this
  unfold zSide; linarith

theorem zSide_B {p : ℝ × ℝ} (h : p ∈ quadRegion (zquad zFairB)) : 0 ≤ zSide p := by
  have := half_plane (q := zquad zFairB) (d := (1, -4)) (o := (6, 0)) (fun i => by fin_cases i <;> simp [cr, zquad, zFairB] <;> norm_num) h
  simp only [cr, Prod.fst_sub, Prod.snd_sub] at this
  unfold zSide; linarith

/-- The hypotheses of `C118_line` are met by the first coordinate on the grid of these two cells, and a closed line through both. -/
example : ∃ d', flowWith (fun _ _ _ => 0) refGels sortReal [] 3 2 ([0, 1, 6, 5, 12, 11] : List ℝ) [0, 6, 0, 4, 1, 6] 3 [2, 9, 2] [2, 3, 2] 1
      [6, 4, 6, 6] [1, -1, -1] [0, 0] = .ok d' ∧ |(d'.take 2).sum| ≤ 1 / 10 ^ 6 := by
  have hcell : ∀ i < 3 - 1, ∀ j < 2 - 1, gridQuad 2 ([0, 1, 6, 5, 12, 11] : List ℝ) [0, 6, 0, 4, 1, 6] i j = zquad (if i = 0 then zFairA else zFairB) := by
    intro i hi j hj
    have hi : i < 2 := hi
    obtain rfl : j = 0 := by omega
    funext k
    interval_cases i <;> fin_cases k <;> simp [gridQuad, nodePlace, cellNode, zquad, zFairA, zFairB]
  have hz : ∀ i : Nat, ZFair (if i = 0 then zFairA else zFairB) ∧ ZSmall (if i = 0 then zFairA else zFairB) ∧
      ∀ k, 16 ≤ zsq ((if i = 0 then zFairA else zFairB) k) ((if i = 0 then zFairA else zFairB) (k + 1)) := by
    intro i
    split_ifs
    · exact ⟨by decide, by decide, by decide⟩
    · exact ⟨by decide, by decide, by decide⟩
  have ha : ((2, 2) : ℝ × ℝ) ∈ quadRegion (zquad zFairA) := by
    have hd := mem_region (zquad zFairA)
    have hc : Convex ℝ (quadRegion (zquad zFairA)) := convex_convexHull ℝ _
    have h1 := hc (hd 0) (hd 1) (a := 7 / 12) (b := 5 / 12) (by norm_num) (by norm_num) (by norm_num)
    have h2 := hc h1 (hd 3) (a := 2 / 3) (b := 1 / 3) (by norm_num) (by norm_num) (by norm_num)
    convert h2 using 1
    ext <;> simp [zquad, zFairA] <;> norm_num
  have hb : ((9, 3) : ℝ × ℝ) ∈ quadRegion (zquad zFairB) := by
    have hd := mem_region (zquad zFairB)
    have hc : Convex ℝ (quadRegion (zquad zFairB)) := convex_convexHull ℝ _
    have h1 := hc (hd 0) (hd 1) (a := 13 / 16) (b := 3 / 16) (by norm_num) (by norm_num) (by norm_num)
    have h2 := hc h1 (hd 2) (a := 16 / 31) (b := 15 / 31) (by norm_num) (by norm_num) (by norm_num)
    convert h2 using 1
    ext <;> simp [zquad, zFairB] <;> norm_num
  have hcA : ((156 / 29, 72 / 29) : ℝ × ℝ) ∈ quadRegion (zquad zFairA) := by
    have hd := mem_region (zquad zFairA)
    have hc : Convex ℝ (quadRegion (zquad zFairA)) := convex_convexHull ℝ _
    have h1 := hc (hd 1) (hd 2) (a := 11 / 29) (b := 18 / 29) (by norm_num) (by norm_num) (by norm_num)
    convert h1 using 1
    ext <;> simp [zquad, zFairA] <;> norm_num
  have hcB : ((156 / 29, 72 / 29) : ℝ × ℝ) ∈ quadRegion (zquad zFairB) := by
    have hd := mem_region (zquad zFairB)
    have hc : Convex ℝ (quadRegion (zquad zFairB)) := convex_convexHull ℝ _
    have h1 := hc (hd 0) (hd 3) (a := 11 / 29) (b := 18 / 29) (by norm_num) (by norm_num) (by norm_num)
    convert h1 using 1
    ext <;> simp [zquad, zFairB] <;> norm_num
  have cov : ∀ p ∈ segment ℝ ((2, 2) : ℝ × ℝ) (9, 3), ∃ i < 3 - 1, ∃ j < 2 - 1, p ∈ quadRegion (gridQuad 2 ([0, 1, 6, 5, 12, 11] : List ℝ) [0, 6, 0, 4, 1, 6] i j) := by
    intro p hp
    obtain ⟨t, h0, h1, rfl⟩ := mem_segment_iff.mp hp
    rcases le_total t (14 / 29) with ht | ht
    · refine ⟨0, by norm_num, 0, by norm_num, ?_⟩
      rw [hcell 0 (by norm_num) 0 (by norm_num), if_pos rfl]
      have := (convex_convexHull ℝ (Set.range (zquad zFairA))) ha hcA (a := 1 - 29 / 14 * t) (b := 29 / 14 * t) (by linarith) (by linarith) (by ring)
      have e : ((2, 2) : ℝ × ℝ) + t • ((9, 3) - (2, 2)) = (1 - 29 / 14 * t) • (2, 2) + (29 / 14 * t) • (156 / 29, 72 / 29) := by
        ext <;> simp only [Prod.fst_add, Prod.snd_add, Prod.smul_fst, Prod.smul_snd, Prod.fst_sub, Prod.snd_sub, smul_eq_mul] <;> ring
      rw [e]
      exact this
    · refine ⟨1, by norm_num, 0, by norm_num, ?_⟩
      rw [hcell 1 (by norm_num) 0 (by norm_num), if_neg (by norm_num)]
      have := (convex_convexHull ℝ (Set.range (zquad zFairB))) hb hcB (a := (29 * t - 14) / 15) (b := 1 - (29 * t - 14) / 15)
        (by linarith) (by linarith) (by ring)
      have e : ((2, 2) : ℝ × ℝ) + t • ((9, 3) - (2, 2)) = ((29 * t - 14) / 15) • (9, 3) + (1 - (29 * t - 14) / 15) • (156 / 29, 72 / 29) := by
        ext <;> simp only [Prod.fst_add, Prod.snd_add, Prod.smul_fst, Prod.smul_snd, Prod.fst_sub, Prod.snd_sub, smul_eq_mul] <;> ring
      rw [e]
      exact this
  have once : ∀ a b : ℝ × ℝ, zSide a ≠ zSide b → ∀ i < 3 - 1, ∀ j < 2 - 1, ∀ i' < 3 - 1, ∀ j' < 2 - 1, (i, j) ≠ (i', j') →
      (insideParams (gridQuad 2 ([0, 1, 6, 5, 12, 11] : List ℝ) [0, 6, 0, 4, 1, 6] i j) a b ∩
        insideParams (gridQuad 2 ([0, 1, 6, 5, 12, 11] : List ℝ) [0, 6, 0, 4, 1, 6] i' j') a b).Subsingleton := by
    intro a b hab i hi j hj i' hi' j' hj' hne
    have e : ∀ t : ℝ, zSide (a + t • (b - a)) = zSide a + t * (zSide b - zSide a) := by
      intro t; simp [zSide]; ring
    have hzero : ∀ t, t ∈ insideParams (gridQuad 2 ([0, 1, 6, 5, 12, 11] : List ℝ) [0, 6, 0, 4, 1, 6] i j) a b ∩
        insideParams (gridQuad 2 ([0, 1, 6, 5, 12, 11] : List ℝ) [0, 6, 0, 4, 1, 6] i' j') a b → zSide (a + t • (b - a)) = 0 := by
      rintro t ⟨⟨-, -, h1⟩, ⟨-, -, h2⟩⟩
      rw [hcell i hi j hj] at h1
      rw [hcell i' hi' j' hj'] at h2
      have hi2 : i < 2 := hi
      have hi2' : i' < 2 := hi'
      have hii : i ≠ i' := by
        rintro rfl
        apply hne
        congr 1
        omega
      interval_cases i <;> interval_cases i'
      · exact absurd rfl hii
      · exact le_antisymm (zSide_A h1) (zSide_B h2)
      · exact le_antisymm (zSide_A h2) (zSide_B h1)
      · exact absurd rfl hii
    intro t ht t' ht'
    have h1 := hzero t ht
    have h2 := hzero t' ht'
    rw [e] at h1 h2
    have : (t - t') * (zSide b - zSide a) = 0 := by linarith
    rcases mul_eq_zero.1 this with h | h
    · linarith
    · exact absurd (by linarith) hab
  have m : ∀ k, movedNode (fun _ _ _ => (0 : ℝ)) 3 [2, 9, 2] [2, 3, 2] k = (([2, 9, 2] : List ℝ).getD k 0, ([2, 3, 2] : List ℝ).getD k 0) := by
    intro k; simp [movedNode]
  have segs : ∀ k < 3 - 1, (movedNode (fun _ _ _ => (0 : ℝ)) 3 [2, 9, 2] [2, 3, 2] k = (2, 2) ∧
        movedNode (fun _ _ _ => (0 : ℝ)) 3 [2, 9, 2] [2, 3, 2] (k + 1) = (9, 3)) ∨
      (movedNode (fun _ _ _ => (0 : ℝ)) 3 [2, 9, 2] [2, 3, 2] k = (9, 3) ∧ movedNode (fun _ _ _ => (0 : ℝ)) 3 [2, 9, 2] [2, 3, 2] (k + 1) = (2, 2)) := by
    intro k hk
    have hk : k < 2 := hk
    interval_cases k
    · left; rw [m, m]; simp
    · right; rw [m, m]; simp
  obtain ⟨d', e, h⟩ := C118_line (fun _ _ _ => 0) refGels refGels_contract sortReal sortReal_ok 3 2 (by norm_num) le_rfl (by norm_num)
    [0, 1, 6, 5, 12, 11] [0, 6, 0, 4, 1, 6] (by simp) (by simp) 3 (by norm_num) [2, 9, 2] [2, 3, 2] (by simp) (by simp)
    (fun i hi j hj => by rw [hcell i hi j hj]; exact zfair (hz i).1) 4 (by norm_num)
    (fun i hi j hj k => by
      rw [hcell i hi j hj, apart]
      refine Real.le_sqrt_of_sq_le ?_
      have := (hz i).2.2 k
      have h' : ((16 : ℤ) : ℝ) ≤ ((zsq ((if i = 0 then zFairA else zFairB) k) ((if i = 0 then zFairA else zFairB) (k + 1)) : ℤ) : ℝ) := by exact_mod_cast this
      simp only [zsq] at h'
      push_cast at h'
      simp only [zquad]
      linarith)
    (fun i j => ([0, 1, 6, 5, 12, 11] : List ℝ).getD (2 * i + j) 0) [6, 4, 6, 6] [1, -1, -1]
    ⟨by simp, by simp, by
      intro i j hi hj
      have hi : i < 2 := hi
      interval_cases i <;> interval_cases j <;> norm_num [xEdge], by
      intro i j hi hj
      obtain rfl : j = 0 := by omega
      interval_cases i <;> norm_num [yEdge]⟩ 6 (by
        intro w hw
        simp only [List.cons_append, List.nil_append, List.mem_cons, List.not_mem_nil, or_false] at hw
        rw [abs_le]
        rcases hw with rfl | rfl | rfl | rfl | rfl | rfl | rfl <;> norm_num)
    [0, 0] (by simp) (fun p => p.1)
    (by
      intro i hi j hj z hz
      have e1 := hcell i hi j hj
      have hi : i < 2 := hi
      obtain rfl : j = 0 := by omega
      rw [e1]
      interval_cases i <;> simp [at_, bilin, cellPhi, cellNode, zquad, zFairA, zFairB])
    (by
      intro k hk
      rcases segs k hk with ⟨e1, e2⟩ | ⟨e1, e2⟩ <;> rw [e1, e2]
      · exact cov
      · rw [segment_symm]; exact cov)
    (by
      intro k hk
      rcases segs k hk with ⟨e1, e2⟩ | ⟨e1, e2⟩ <;> rw [e1, e2]
      · exact once _ _ (by norm_num [zSide])
      · exact once _ _ (by norm_num [zSide]))
    (by
      intro k hk i hi j hj
      rw [hcell i hi j hj]
      have := fun a b => clearLine_int (hz i).1.1 (hz i).2.1 a b
      rcases segs k hk with ⟨e1, e2⟩ | ⟨e1, e2⟩ <;> rw [e1, e2]
      · simpa using this (2, 2) (9, 3) (by decide) (by decide) (.inr (by decide))
      · simpa using this (9, 3) (2, 2) (by decide) (by decide) (.inr (by decide)))
  refine ⟨d', e, ?_⟩
  rw [m, m] at h
  simp only [Nat.reduceSub] at h
  norm_num at h
  refine h.trans ?_
  norm_num

/-! ### A nearly flat corner -/

/-- **C118 is false for all convex quadrilaterals**: the angle at the first node of this cell is nearly flat, and the search for this node
gives up after ten steps.  The potential is the sum of the indices, the line goes from this node, where it is 0, to the place with
indices (1/2, 1/2), where it is 1, and the flow is wrong by more than `1 / 2000`. -/
theorem C118_refuted :
    (∀ k, 0 < area2 (gridQuad 2 ([0, -1, 1, 0] : List ℝ) [0, 1 / 4096, 0, 4097 / 4096] 0 0 k)
      (gridQuad 2 ([0, -1, 1, 0] : List ℝ) [0, 1 / 4096, 0, 4097 / 4096] 0 0 (k + 1))
      (gridQuad 2 ([0, -1, 1, 0] : List ℝ) [0, 1 / 4096, 0, 4097 / 4096] 0 0 (k + 2))) ∧
    at_ (gridQuad 2 ([0, -1, 1, 0] : List ℚ) [0, 1 / 4096, 0, 4097 / 4096] 0 0) (fun _ => 0) = (0, 0) ∧
    at_ (gridQuad 2 ([0, -1, 1, 0] : List ℚ) [0, 1 / 4096, 0, 4097 / 4096] 0 0) (fun _ => 1 / 2) = (0, 2049 / 8192) ∧
    PotentialData 2 2 (fun i j => ((i + j : Nat) : ℚ)) [1, 1] [1, 1] ∧
    bilin (cellPhi (fun i j => ((i + j : Nat) : ℚ)) 0 0) (fun _ => 1 / 2) - bilin (cellPhi (fun i j => ((i + j : Nat) : ℚ)) 0 0) (fun _ => 0) = 1 ∧
    ∃ w : ℚ, flowWith (fun _ _ _ => 0) Sg.Witness.cramerGels sortReal [] 2 2 [0, -1, 1, 0] [0, 1 / 4096, 0, 4097 / 4096] 2 [0, 0]
      [0, 2049 / 8192] 1 [1, 1] [1, 1] [7] = .ok [w] ∧ w < 1 - 1 / 2000 := by
  refine ⟨fun k => ?_, ?_, ?_, ?_, ?_, ?_⟩
  · have e : gridQuad 2 ([0, -1, 1, 0] : List ℝ) [0, 1 / 4096, 0, 4097 / 4096] 0 0 = ![(0, 0), (1, 0), (0, 4097 / 4096), (-1, 1 / 4096)] := by
      funext k
      fin_cases k <;> simp [gridQuad, nodePlace, cellNode]
    rw [e]
    fin_cases k <;> simp [area2] <;> norm_num
  · ext <;> norm_num [at_, bilin, gridQuad, nodePlace, cellNode]
  · ext <;> norm_num [at_, bilin, gridQuad, nodePlace, cellNode]
  · refine ⟨by simp, by simp, fun i j hi hj => ?_, fun i j hi hj => ?_⟩
    · obtain rfl : i = 0 := by omega
      interval_cases j <;> norm_num [xEdge]
    · obtain rfl : j = 0 := by omega
      interval_cases i <;> norm_num [yEdge]
  · norm_num [bilin, cellPhi, cellNode]
  · have h : (flowWith (fun _ _ _ => 0) Sg.Witness.cramerGels sortReal [] 2 2 [0, -1, 1, 0] [0, 1 / 4096, 0, 4097 / 4096] 2 [0, 0]
        [0, 2049 / 8192] 1 [1, 1] [1, 1] [7] >>= fun d => .ok (d.length, decide (d.getD 0 (0 : ℚ) < 1 - 1 / 2000))) = .ok (1, true) := by decide +kernel
    obtain ⟨d, e, h⟩ := bind_ok_inv h
    simp only [Except.ok.injEq, Prod.mk.injEq, decide_eq_true_eq] at h
    obtain ⟨hl, hne⟩ := h
    obtain ⟨w, rfl⟩ := List.length_eq_one_iff.mp hl
    exact ⟨w, e, hne⟩

end Sg.Props
