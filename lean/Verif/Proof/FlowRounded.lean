import Verif.Spec.RoundedFlow
import Verif.Proof.NodeRounded
import Verif.Proof.QuadIntersectRounded
import Verif.Proof.QuadFlows
import Verif.Props.InterpRounding
import Verif.Props.QuadFlows
/-
Searches in one cell in rounded arithmetic.
-/
namespace Sg.QuadFlows
open Sg Sg.LinearSolve Sg.Triangulate Sg.QuadIntersect Sg.FindPoint Sg.Spec Sg.Props Sg.NodeInterp

variable {rnd : ℝ → ℝ} {g : Gels (Fl rnd)} {u β Δ ρ L R : ℝ}

/-- What holds of the finder after `setQuadPoints q` and any searches. -/
structure FlQuad (q : Quad (Fl rnd)) (f : Finder (Fl rnd) 2) : Prop where
  ready : FindPoint.Ready f
  dims : f.dims = fun _ => 2
  coords : ∀ k, f.coords k = gridList fun i => comp (q i) k
  per : f.indexPeriodicity = fun _ => 0
  nitermax : f.nitermax = 10
  tolpos : f.tolpos = flowTol
  bounds : ∀ b, f.bounds = some b → ∀ k i, (b.1 k).val ≤ (comp (q i) k).val ∧ (comp (q i) k).val ≤ (b.2 k).val

theorem FlQuad.same {q : Quad (Fl rnd)} {f f' : Finder (Fl rnd) 2} (h : FlQuad q f) (hr : FindPoint.Ready f') (hs : SameGrid f f') :
    FlQuad q f' :=
  ⟨hr, hs.dims.trans h.dims, fun k => by rw [hs.coords]; exact h.coords k, hs.per.trans h.per,
    hs.nitermax.trans h.nitermax, hs.tolpos.trans h.tolpos, fun b hb => h.bounds b (by rw [← hs.bounds]; exact hb)⟩

theorem FlQuad.grid {N : Nat} (hN : 2 ≤ N) {q : Quad (Fl rnd)} {f : Finder (Fl rnd) 2} (h : FlQuad q f) : GridFl N f := by
  refine ⟨h.ready, by rw [h.dims]; exact goodDims2, by rw [h.dims]; exact fun _ => hN, fun i => ?_⟩
  rw [h.coords, h.dims]
  simp [gridList]

theorem foldMin_fl (c : Nat → Fl rnd) : ∀ (l : List Nat) (m : Fl rnd),
    (l.foldl (fun m j => if m < c j then m else c j) m).val ≤ m.val ∧
      ∀ j ∈ l, (l.foldl (fun m j => if m < c j then m else c j) m).val ≤ (c j).val
  | [], m => ⟨le_rfl, by simp⟩
  | j :: l, m => by
    obtain ⟨h1, h2⟩ := foldMin_fl c l (if m < c j then m else c j)
    have h3 : (if m < c j then m else c j).val ≤ m.val ∧ (if m < c j then m else c j).val ≤ (c j).val := by
      split_ifs with h
      · exact ⟨le_rfl, le_of_lt h⟩
      · exact ⟨not_lt.mp (show ¬ m.val < (c j).val from h), le_rfl⟩
    refine ⟨h1.trans h3.1, fun i hi => ?_⟩
    rcases List.mem_cons.mp hi with rfl | hi
    · exact h1.trans h3.2
    · exact h2 i hi

theorem foldMax_fl (c : Nat → Fl rnd) : ∀ (l : List Nat) (m : Fl rnd),
    m.val ≤ (l.foldl (fun m j => if c j < m then m else c j) m).val ∧
      ∀ j ∈ l, (c j).val ≤ (l.foldl (fun m j => if c j < m then m else c j) m).val
  | [], m => ⟨le_rfl, by simp⟩
  | j :: l, m => by
    obtain ⟨h1, h2⟩ := foldMax_fl c l (if c j < m then m else c j)
    have h3 : m.val ≤ (if c j < m then m else c j).val ∧ (c j).val ≤ (if c j < m then m else c j).val := by
      split_ifs with h
      · exact ⟨le_rfl, le_of_lt h⟩
      · exact ⟨not_lt.mp (show ¬ (c j).val < m.val from h), le_rfl⟩
    refine ⟨h3.1.trans h1, fun i hi => ?_⟩
    rcases List.mem_cons.mp hi with rfl | hi
    · exact h3.2.trans h1
    · exact h2 i hi

theorem flQuad_set {q : Quad (Fl rnd)} {s : Flows (Fl rnd)} (h : FlowFinder s.finder) : FlQuad q (s.setQuadPoints q).finder := by
  refine ⟨ready_setGrid _ _ _ _, rfl, fun k => rfl, ?_, h.nitermax, h.tolpos, ?_⟩
  · funext i
    show (if (0 : Int) ≠ 0 then ((2 : Nat) : Fl rnd) else s.finder.indexPeriodicity i) = 0
    rw [if_neg (by omega), h.per]
  · intro b hb k i
    obtain rfl := Option.some.inj hb
    obtain ⟨j, hj, rfl⟩ : ∃ j < 4, gridNode j = i := by
      match i with
      | 0 => exact ⟨0, by omega, rfl⟩
      | 1 => exact ⟨2, by omega, rfl⟩
      | 2 => exact ⟨3, by omega, rfl⟩
      | 3 => exact ⟨1, by omega, rfl⟩
    have hm : j ∈ List.range (∏ _ : Fin 2, 2) := by simpa using hj
    exact ⟨(foldMin_fl (fun j => comp (q (gridNode j)) k) _ _).2 j hm, (foldMax_fl (fun j => comp (q (gridNode j)) k) _ _).2 j hm⟩

theorem coordError_nonneg (hu : 0 ≤ u) : 0 ≤ coordError u := by
  unfold coordError
  have := one_le_pow₀ (show 1 ≤ 1 + u by linarith) (n := 11)
  linarith

/-- Interpolation of a coordinate. -/
theorem interp_fl2 (hr : Rounds rnd u 0) {N : Nat} (hN : KeepsInts rnd N) (h2 : 2 ≤ N) (v : Fin 4 → Fl rnd) (hv : ∀ i, |(v i).val| ≤ R)
    (d : Fin 2 → Fl rnd) (hd : InGrid (fun _ => 2) (vals d)) :
    ∃ w, interp (fun _ : Fin 2 => 2) d (gridList v) = .ok w ∧ |w.val - bilin (fun i => (v i).val) (vals d)| ≤ coordError u * R := by
  obtain ⟨w, w', h1, h3, h4⟩ := C107_interp hr hN (fun _ : Fin 2 => 2) goodDims2 (fun _ => h2) d hd (gridList v) (by simp [gridList]) R (by
    intro m x _ hx
    obtain ⟨j, -, rfl⟩ := List.mem_map.mp (List.mem_of_getElem? hx)
    exact hv _)
  have e : (gridList v).map Fl.val = gridList fun i => (v i).val := by simp [gridList]
  rw [e, interp_bilin _ _ hd, Except.ok.injEq] at h3
  subst h3
  exact ⟨w, h1, h4⟩

/-- Two equations with errors in the matrix and on the right. -/
theorem two_solve {A0 A1 A2 A3 F0 F1 F2 F3 b0 b1 r0 r1 x0 x1 y0 y1 f r : ℝ} (hL : 0 < L) (hΔ : 0 < Δ) (a0 : |A0| ≤ L) (a1 : |A1| ≤ L)
    (a2 : |A2| ≤ L) (a3 : |A3| ≤ L) (hdet : Δ * L ^ 2 ≤ |A0 * A3 - A1 * A2|) (f0 : |F0| ≤ f) (f1 : |F1| ≤ f) (f2 : |F2| ≤ f) (f3 : |F3| ≤ f)
    (hr0 : |r0| ≤ r) (hr1 : |r1| ≤ r) (e0 : A0 * y0 + A1 * y1 = b0) (e1 : A2 * y0 + A3 * y1 = b1)
    (g0 : (A0 + F0) * x0 + (A1 + F1) * x1 = b0 + r0) (g1 : (A2 + F2) * x0 + (A3 + F3) * x1 = b1 + r1) (hy0 : |y0| ≤ 1 / 2) (hy1 : |y1| ≤ 1 / 2)
    (hf : 8 * f ≤ Δ * L) : |x0 - y0| ≤ 4 * (r + f) / (Δ * L) ∧ |x1 - y1| ≤ 4 * (r + f) / (Δ * L) := by
  have hfp : 0 ≤ f := (abs_nonneg _).trans f0
  set e := max |x0 - y0| |x1 - y1| with he
  have he0 : |x0 - y0| ≤ e := le_max_left _ _
  have he1 : |x1 - y1| ≤ e := le_max_right _ _
  have hep : 0 ≤ e := (abs_nonneg _).trans he0
  have hx0 : |x0| ≤ 1 / 2 + e := by
    have := abs_add_le y0 (x0 - y0); rw [add_sub_cancel] at this; linarith
  have hx1 : |x1| ≤ 1 / 2 + e := by
    have := abs_add_le y1 (x1 - y1); rw [add_sub_cancel] at this; linarith
  set w0 := r0 - F0 * x0 - F1 * x1 with hw0
  set w1 := r1 - F2 * x0 - F3 * x1 with hw1
  have w : ∀ {r' G H : ℝ}, |r'| ≤ r → |G| ≤ f → |H| ≤ f → |r' - G * x0 - H * x1| ≤ r + f * (1 + 2 * e) := by
    intro r' G H h1 h2 h3
    have t1 : |G * x0| ≤ f * (1 / 2 + e) := by rw [abs_mul]; exact mul_le_mul h2 hx0 (abs_nonneg _) hfp
    have t2 : |H * x1| ≤ f * (1 / 2 + e) := by rw [abs_mul]; exact mul_le_mul h3 hx1 (abs_nonneg _) hfp
    rw [abs_le] at *
    constructor <;> linarith [h1.1, h1.2, t1.1, t1.2, t2.1, t2.2]
  have W0 : |w0| ≤ r + f * (1 + 2 * e) := w hr0 f0 f1
  have W1 : |w1| ≤ r + f * (1 + 2 * e) := w hr1 f2 f3
  have hWp : 0 ≤ r + f * (1 + 2 * e) := (abs_nonneg _).trans W0
  have d0 : (A0 * A3 - A1 * A2) * (x0 - y0) = A3 * w0 - A1 * w1 := by
    rw [hw0, hw1]; linear_combination A3 * (g0 - e0) - A1 * (g1 - e1)
  have d1 : (A0 * A3 - A1 * A2) * (x1 - y1) = A0 * w1 - A2 * w0 := by
    rw [hw0, hw1]; linear_combination A0 * (g1 - e1) - A2 * (g0 - e0)
  have key : ∀ {z P Q v w : ℝ}, (A0 * A3 - A1 * A2) * z = P * v - Q * w → |P| ≤ L → |Q| ≤ L → |v| ≤ r + f * (1 + 2 * e) →
      |w| ≤ r + f * (1 + 2 * e) → Δ * L * |z| ≤ 2 * (r + f * (1 + 2 * e)) := by
    intro z P Q v w h hP hQ hv hw
    have t1 : |P * v| ≤ L * (r + f * (1 + 2 * e)) := by rw [abs_mul]; exact mul_le_mul hP hv (abs_nonneg _) hL.le
    have t2 : |Q * w| ≤ L * (r + f * (1 + 2 * e)) := by rw [abs_mul]; exact mul_le_mul hQ hw (abs_nonneg _) hL.le
    have t3 : |A0 * A3 - A1 * A2| * |z| ≤ 2 * L * (r + f * (1 + 2 * e)) := by
      rw [← abs_mul, h]
      have := abs_sub (P * v) (Q * w)
      linarith
    have t4 := mul_le_mul_of_nonneg_right hdet (abs_nonneg z)
    have t5 : L * (Δ * L * |z|) ≤ L * (2 * (r + f * (1 + 2 * e))) :=
      calc L * (Δ * L * |z|) = Δ * L ^ 2 * |z| := by ring
        _ ≤ 2 * L * (r + f * (1 + 2 * e)) := t4.trans t3
        _ = _ := by ring
    exact le_of_mul_le_mul_left t5 hL
  have k0 := key d0 a3 a1 W0 W1
  have k1 := key d1 a0 a2 W1 W0
  have hDL : 0 < Δ * L := mul_pos hΔ hL
  have ke : Δ * L * e ≤ 2 * (r + f * (1 + 2 * e)) := by
    rcases max_choice |x0 - y0| |x1 - y1| with h | h
    · rw [← he] at h; rw [← h] at k0; exact k0
    · rw [← he] at h; rw [← h] at k1; exact k1
  have : e ≤ 4 * (r + f) / (Δ * L) := by
    rw [le_div_iff₀ hDL]
    have h1 := mul_le_mul_of_nonneg_right hf hep
    have h2 : 2 * (r + f * (1 + 2 * e)) = 2 * (r + f) + 8 * f * e / 2 := by ring
    rw [h2] at ke
    linarith
  exact ⟨he0.trans this, he1.trans this⟩

/-! ### One step -/

/-- The coordinates of the nodes along an axis. -/
def axisVals (q : Quad (Fl rnd)) (k : Fin 2) : Fin 4 → ℝ := fun i => (comp (q i) k).val

/-- The initial indices. -/
noncomputable def middle : Fin 2 → Fl rnd := fun _ => 1 / (1 + 1)

theorem middle_val (h : SearchesFinely rnd g u β Δ ρ L R) (k : Fin 2) : (middle k : Fl rnd).val = 1 / 2 := by
  show rnd (1 / rnd (1 + 1)) = 1 / 2
  have h2 : rnd (1 + 1) = 2 := by have := h.ints.int 2 (by norm_num); norm_num at this ⊢; exact this
  rw [h2, h.half]

theorem rnd_one (h : SearchesFinely rnd g u β Δ ρ L R) : rnd 1 = 1 := by have := h.ints.int 1 (by norm_num); simpa using this

theorem hi_val (h : SearchesFinely rnd g u β Δ ρ L R) (j k : Fin 2) :
    (indsHi (fun _ => 2) (middle : Fin 2 → Fl rnd) j k).val = if k = j then 1 else 1 / 2 := by
  unfold indsHi
  by_cases hk : k = j
  · rw [if_pos hk, if_pos hk]
    have e1 : ((middle j : Fl rnd) + 1 / (1 + 1)).val = 1 := by
      show rnd ((middle j : Fl rnd).val + (middle j : Fl rnd).val) = 1
      rw [middle_val h, show (1 : ℝ) / 2 + 1 / 2 = 1 by norm_num, rnd_one h]
    have e2 : (((2 - 1 : Nat) : Nat) : Fl rnd).val = 1 := by
      show rnd (((2 - 1 : Nat) : Nat) : ℝ) = 1
      rw [show (((2 - 1 : Nat) : Nat) : ℝ) = 1 by norm_num, rnd_one h]
    dsimp only
    split_ifs
    · exact e1
    · exact e2
  · rw [if_neg hk, if_neg hk, middle_val h]

theorem lo_val (h : SearchesFinely rnd g u β Δ ρ L R) (j k : Fin 2) :
    (indsLo (middle : Fin 2 → Fl rnd) j k).val = if k = j then 0 else 1 / 2 := by
  unfold indsLo
  by_cases hk : k = j
  · rw [if_pos hk, if_pos hk]
    have e1 : ((middle j : Fl rnd) - 1 / (1 + 1)).val = 0 := by
      show rnd ((middle j : Fl rnd).val - (middle j : Fl rnd).val) = 0
      rw [sub_self, rnd_zero h.rounds]
    dsimp only
    split_ifs
    · exact e1
    · rfl
  · rw [if_neg hk, if_neg hk, middle_val h]

theorem fair_axis {q : Quad (Fl rnd)} (hc : FairCell Δ L R (valQuad q)) (k : Fin 2) :
    axisVals q k 0 + axisVals q k 2 = axisVals q k 1 + axisVals q k 3 ∧ |axisVals q k 1 - axisVals q k 0| ≤ L ∧
      |axisVals q k 3 - axisVals q k 0| ≤ L ∧ ∀ i, |axisVals q k i| ≤ R := by
  match k with
  | 0 => exact ⟨congrArg Prod.fst hc.closed, hc.side1.1, hc.side3.1, fun i => (hc.coords i).1⟩
  | 1 => exact ⟨congrArg Prod.snd hc.closed, hc.side1.2, hc.side3.2, fun i => (hc.coords i).2⟩

/-- The exact entries of the Jacobian. -/
def slope (v : Fin 4 → ℝ) (j : Fin 2) : ℝ := match j with | 0 => v 1 - v 0 | 1 => v 3 - v 0

theorem inGrid_iff (x : Fin 2 → ℝ) : InGrid (fun _ => 2) x ↔ InCell x := ⟨inGrid_inCell, inCell_inGrid⟩

theorem bilin_slope (v : Fin 4 → ℝ) (hv : v 0 + v 2 = v 1 + v 3) (x : Fin 2 → ℝ) :
    bilin v x = v 0 + slope v 0 * x 0 + slope v 1 * x 1 := by
  unfold bilin slope
  dsimp only
  linear_combination (x 0 * x 1) * hv

/-- The Jacobian and the right-hand side. -/
theorem jac_near (h : SearchesFinely rnd g u β Δ ρ L R) {q : Quad (Fl rnd)} (hc : FairCell Δ L R (valQuad q)) {s : Finder (Fl rnd) 2}
    (hd : s.dims = fun _ => 2) (hcs : ∀ k, s.coords k = gridList fun i => comp (q i) k) (hm : s.dIndices = middle) (t : Fin 2 → ℝ)
    (ht : ∀ k, |(s.targetPoint k).val - t k| ≤ ρ)
    (htc : ∀ k, |t k - bilin (axisVals q k) (fun _ => 1 / 2)| ≤ L) :
    ∃ jac rhs, s.computeJacobianAndRHS = .ok (jac, rhs) ∧ (∀ i j, |(jac i j).val - slope (axisVals q i) j| ≤ slopeError u L R) ∧
      ∀ i, |(rhs i).val - (t i - bilin (axisVals q i) (fun _ => 1 / 2))| ≤ offsetError u ρ L R := by
  have hu := h.rounds.rel
  have hmid : vals (middle : Fin 2 → Fl rnd) = fun _ => 1 / 2 := funext fun k => middle_val h k
  have hhi : ∀ j, vals (indsHi (fun _ => 2) (middle : Fin 2 → Fl rnd) j) = fun k => if k = j then 1 else 1 / 2 := fun j =>
    funext fun k => hi_val h j k
  have hlo : ∀ j, vals (indsLo (middle : Fin 2 → Fl rnd) j) = fun k => if k = j then 0 else 1 / 2 := fun j =>
    funext fun k => lo_val h j k
  have key : ∀ (i : Fin 2) (d : Fin 2 → Fl rnd), InCell (vals d) → ∃ w, interp s.dims d (s.coords i) = .ok w ∧
      |w.val - bilin (axisVals q i) (vals d)| ≤ coordError u * R := by
    intro i d hdi
    rw [hd, hcs]
    exact interp_fl2 h.rounds h.ints (by norm_num) _ (fair_axis hc i).2.2.2 d ((inGrid_iff _).mpr hdi)
  have c0 : InCell (vals (middle : Fin 2 → Fl rnd)) := by rw [hmid]; intro k; constructor <;> norm_num
  have c1 : ∀ j, InCell (vals (indsHi (fun _ => 2) (middle : Fin 2 → Fl rnd) j)) := by
    intro j; rw [hhi]; intro k; dsimp only; split_ifs <;> constructor <;> norm_num
  have c2 : ∀ j, InCell (vals (indsLo (middle : Fin 2 → Fl rnd) j)) := by
    intro j; rw [hlo]; intro k; dsimp only; split_ifs <;> constructor <;> norm_num
  choose wm hm1 hm2 using fun i => key i middle c0
  choose wh hh1 hh2 using fun i j => key i _ (c1 j)
  choose wl hl1 hl2 using fun i j => key i _ (c2 j)
  refine ⟨fun i j => (wh i j - wl i j) / (indsHi (fun _ => 2) middle j j - indsLo middle j j), fun i => s.targetPoint i - wm i, ?_, ?_, ?_⟩
  · unfold Finder.computeJacobianAndRHS
    rw [hm]
    rw [forAxes_ok _ (fun i => s.targetPoint i - wm i) (fun i => by rw [hm1]; rfl)]
    simp only [bind, Except.bind]
    rw [forAxes_ok (fun i => forAxes fun j => _) (fun i j => (wh i j - wl i j) / (indsHi (fun _ => 2) middle j j - indsLo middle j j))]
    · rfl
    · intro i
      refine forAxes_ok _ _ fun j => ?_
      have a1 := hh1 i j
      have a2 := hl1 i j
      rw [hd] at a1 a2 ⊢
      rw [a1, a2]
      rfl
  · intro i j
    have e1 : (indsHi (fun _ => 2) (middle : Fin 2 → Fl rnd) j j - indsLo middle j j).val = 1 := by
      rw [Fl.sub_val, hi_val h, lo_val h, if_pos rfl, if_pos rfl, sub_zero, rnd_one h]
    rw [Fl.div_val, e1, div_one, Fl.sub_val]
    have hs : bilin (axisVals q i) (vals (indsHi (fun _ => 2) (middle : Fin 2 → Fl rnd) j)) -
        bilin (axisVals q i) (vals (indsLo (middle : Fin 2 → Fl rnd) j)) = slope (axisVals q i) j := by
      rw [hhi, hlo, bilin_slope _ (fair_axis hc i).1, bilin_slope _ (fair_axis hc i).1]
      match j with
      | 0 => simp
      | 1 => simp
    have hsl : |slope (axisVals q i) j| ≤ L := by
      match j with
      | 0 => exact (fair_axis hc i).2.1
      | 1 => exact (fair_axis hc i).2.2.1
    have a1 := hh2 i j
    have a2 := hl2 i j
    set D := (wh i j).val - (wl i j).val with hD
    have d1 : |D - slope (axisVals q i) j| ≤ 2 * (coordError u * R) := by
      rw [← hs, hD]
      rw [abs_le] at *
      constructor <;> linarith [a1.1, a1.2, a2.1, a2.2]
    have d2 : |D| ≤ L + 2 * (coordError u * R) := by
      have := abs_add_le (slope (axisVals q i) j) (D - slope (axisVals q i) j)
      rw [add_sub_cancel] at this
      linarith
    have b1 := rnd_near h.rounds D
    have b2 := rnd_near h.rounds (rnd D)
    have b3 : |rnd D| ≤ (1 + u) * |D| := by
      have := abs_add_le D (rnd D - D); rw [add_sub_cancel] at this; linarith
    have b4 : |rnd (rnd D) - D| ≤ ((1 + u) ^ 2 - 1) * |D| := by
      have t := abs_sub_le (rnd (rnd D)) (rnd D) D
      have := mul_le_mul_of_nonneg_left b3 hu
      nlinarith
    have b5 : ((1 + u) ^ 2 - 1) * |D| ≤ ((1 + u) ^ 2 - 1) * (L + 2 * (coordError u * R)) :=
      mul_le_mul_of_nonneg_left d2 (by nlinarith)
    have t := abs_sub_le (rnd (rnd D)) D (slope (axisVals q i) j)
    unfold slopeError
    linarith
  · intro i
    rw [Fl.sub_val]
    have a1 := hm2 i
    rw [hmid] at a1
    have a2 := ht i
    have a3 := htc i
    set D := (s.targetPoint i).val - (wm i).val with hD
    set E := t i - bilin (axisVals q i) (fun _ => 1 / 2) with hE
    have d1 : |D - E| ≤ ρ + coordError u * R := by
      rw [hD, hE]
      rw [abs_le] at *
      constructor <;> linarith [a1.1, a1.2, a2.1, a2.2]
    have d2 : |D| ≤ L + ρ + coordError u * R := by
      have := abs_add_le E (D - E)
      rw [add_sub_cancel] at this
      linarith
    have b1 := rnd_near h.rounds D
    have b2 := mul_le_mul_of_nonneg_left d2 hu
    have t := abs_sub_le (rnd D) D E
    unfold offsetError
    linarith

/-- A matrix near a regular one is regular. -/
theorem det_ne {A0 A1 A2 A3 B0 B1 B2 B3 f : ℝ} (hL : 0 < L) (hΔ : 0 < Δ) (a0 : |A0| ≤ L) (a1 : |A1| ≤ L) (a2 : |A2| ≤ L) (a3 : |A3| ≤ L)
    (hdet : Δ * L ^ 2 ≤ |A0 * A3 - A1 * A2|) (f0 : |B0 - A0| ≤ f) (f1 : |B1 - A1| ≤ f) (f2 : |B2 - A2| ≤ f) (f3 : |B3 - A3| ≤ f)
    (hf : 8 * f ≤ Δ * L) : B0 * B3 - B1 * B2 ≠ 0 := by
  intro h0
  have hfp : 0 ≤ f := (abs_nonneg _).trans f0
  have hL2 : 0 < L ^ 2 := by positivity
  have bound : ∀ {P Q p q : ℝ}, |P| ≤ L → |Q| ≤ L → |p - P| ≤ f → |q - Q| ≤ f → |p * q - P * Q| ≤ 2 * L * f + f ^ 2 := by
    intro P Q p q h1 h2 h3 h4
    have e : p * q - P * Q = P * (q - Q) + (p - P) * Q + (p - P) * (q - Q) := by ring
    rw [e]
    have t1 : |P * (q - Q)| ≤ L * f := by rw [abs_mul]; exact mul_le_mul h1 h4 (abs_nonneg _) hL.le
    have t2 : |(p - P) * Q| ≤ f * L := by rw [abs_mul]; exact mul_le_mul h3 h2 (abs_nonneg _) hfp
    have t3 : |(p - P) * (q - Q)| ≤ f * f := by rw [abs_mul]; exact mul_le_mul h3 h4 (abs_nonneg _) hfp
    have t4 := abs_add_three (P * (q - Q)) ((p - P) * Q) ((p - P) * (q - Q))
    nlinarith
  have b1 := bound a0 a3 f0 f3
  have b2 := bound a1 a2 f1 f2
  have hA : |A0 * A3 - A1 * A2| ≤ 2 * L ^ 2 := by
    have t1 : |A0 * A3| ≤ L * L := by rw [abs_mul]; exact mul_le_mul a0 a3 (abs_nonneg _) hL.le
    have t2 : |A1 * A2| ≤ L * L := by rw [abs_mul]; exact mul_le_mul a1 a2 (abs_nonneg _) hL.le
    have := abs_sub (A0 * A3) (A1 * A2)
    nlinarith
  have hΔ2 : Δ ≤ 2 := le_of_mul_le_mul_right (hdet.trans hA) hL2
  have hfL : 4 * f ≤ L := by nlinarith
  have : |A0 * A3 - A1 * A2| ≤ 4 * L * f + 2 * f ^ 2 := by
    have e : A0 * A3 - A1 * A2 = -(B0 * B3 - A0 * A3) + (B1 * B2 - A1 * A2) := by linear_combination h0
    rw [e]
    have := abs_add_le (-(B0 * B3 - A0 * A3)) (B1 * B2 - A1 * A2)
    rw [abs_neg] at this
    linarith
  have h3 : 2 * f ^ 2 ≤ L * f := by nlinarith
  have h4 : 8 * f * L ≤ Δ * L * L := mul_le_mul_of_nonneg_right hf hL.le
  nlinarith [mul_pos hΔ hL2]

/-- What the solver answers for a fair cell. -/
theorem solution_near (h : SearchesFinely rnd g u β Δ ρ L R) {q : Quad (Fl rnd)} (hc : FairCell Δ L R (valQuad q)) (jac : Fin 2 → Fin 2 → Fl rnd)
    (rhs : Fin 2 → Fl rnd) (c : Fin 2 → ℝ) (hj : ∀ i j, |(jac i j).val - slope (axisVals q i) j| ≤ slopeError u L R)
    (hr : ∀ i, |(rhs i).val - c i| ≤ offsetError u ρ L R) (y : Fin 2 → ℝ) (hy : ∀ k, |y k| ≤ 1 / 2)
    (hyc : ∀ i, slope (axisVals q i) 0 * y 0 + slope (axisVals q i) 1 * y 1 = c i) (k : Fin 2) :
    |(solution g jac rhs k).val - y k| ≤ 4 * (offsetError u ρ L R + matrixError u β L R) / (Δ * L) := by
  have hs : ∀ i j, |slope (axisVals q i) j| ≤ L := by
    intro i j
    match j with
    | 0 => exact (fair_axis hc i).2.1
    | 1 => exact (fair_axis hc i).2.2.1
  have hdet : Δ * L ^ 2 ≤ |slope (axisVals q 0) 0 * slope (axisVals q 1) 1 - slope (axisVals q 0) 1 * slope (axisVals q 1) 0| := by
    have := hc.area
    refine this.trans (le_of_eq (congrArg _ ?_))
    unfold slope axisVals area2 valQuad valPt comp
    dsimp only
    ring
  have hse : 0 ≤ slopeError u L R := (abs_nonneg _).trans (hj 0 0)
  have hm : slopeError u L R ≤ matrixError u β L R := by
    unfold matrixError
    have := mul_nonneg h.pos (add_nonneg h.size.le hse)
    linarith
  set r := args2 (flatten2 jac) (flatten1 rhs) with hrd
  have ha : r.a = [jac 0 0, jac 0 1, jac 1 0, jac 1 1] := rfl
  have hb : r.b = [rhs 0, rhs 1] := rfl
  have hS : ∀ x ∈ r.a, |x.val| ≤ L + slopeError u L R := by
    have : ∀ i j, |(jac i j).val| ≤ L + slopeError u L R := by
      intro i j
      have h1 := abs_add_le (slope (axisVals q i) j) ((jac i j).val - slope (axisVals q i) j)
      rw [add_sub_cancel] at h1
      linarith [hj i j, hs i j]
    rw [ha]
    intro x hx
    simp only [List.mem_cons, List.not_mem_nil, or_false] at hx
    rcases hx with rfl | rfl | rfl | rfl <;> exact this _ _
  have k00 : coef r 0 0 = (jac 0 0).val := rfl
  have k10 : coef r 1 0 = (jac 0 1).val := rfl
  have k01 : coef r 0 1 = (jac 1 0).val := rfl
  have k11 : coef r 1 1 = (jac 1 1).val := rfl
  have near : ∀ {E : ℝ} (i j), |E| ≤ β * (L + slopeError u L R) → |(jac i j).val + E - slope (axisVals q i) j| ≤ matrixError u β L R := by
    intro E i j hE
    have h1 := abs_add_le ((jac i j).val - slope (axisVals q i) j) E
    have h2 := hj i j
    have h3 : (jac i j).val + E - slope (axisVals q i) j = (jac i j).val - slope (axisVals q i) j + E := by ring
    rw [h3]
    unfold matrixError
    linarith
  have hinfo : (g r).info = 0 := by
    by_contra hne
    obtain ⟨-, E, hE, hsing⟩ := h.stable.reported r (two_args2 _ _) hne
    have hE' := hE _ hS
    rw [k00, k10, k01, k11] at hsing
    exact det_ne h.size h.shape (hs 0 0) (hs 0 1) (hs 1 0) (hs 1 1) hdet (near 0 0 (hE' 0 0)) (near 0 1 (hE' 1 0)) (near 1 0 (hE' 0 1))
      (near 1 1 (hE' 1 1)) h.regular hsing
  have hnz : ∃ x ∈ r.a, x.val ≠ 0 := by
    by_contra hcon
    push Not at hcon
    have z : ∀ i j, (jac i j).val = 0 := by
      intro i j
      refine hcon _ ?_
      rw [ha]
      fin_cases i <;> fin_cases j <;> simp
    have n : ∀ i j, |0 - slope (axisVals q i) j| ≤ matrixError u β L R := by
      intro i j
      rw [← z i j]
      exact (hj i j).trans hm
    exact det_ne h.size h.shape (hs 0 0) (hs 0 1) (hs 1 0) (hs 1 1) hdet (n 0 0) (n 0 1) (n 1 0) (n 1 1) h.regular (by ring)
  obtain ⟨E, hE, hsol⟩ := h.stable.solves r (two_args2 _ _) hnz hinfo
  have hE' := hE _ hS
  have s0 := hsol 0 (by norm_num)
  have s1 := hsol 1 (by norm_num)
  rw [k00, k10] at s0
  rw [k01, k11] at s1
  have v0 : entry (g r).b 0 = (solution g jac rhs 0).val := rfl
  have v1 : entry (g r).b 1 = (solution g jac rhs 1).val := rfl
  have w0 : entry r.b 0 = (rhs 0).val := rfl
  have w1 : entry r.b 1 = (rhs 1).val := rfl
  rw [v0, v1, w0] at s0
  rw [v0, v1, w1] at s1
  have key := two_solve (F0 := (jac 0 0).val + E 0 0 - slope (axisVals q 0) 0) (F1 := (jac 0 1).val + E 1 0 - slope (axisVals q 0) 1)
    (F2 := (jac 1 0).val + E 0 1 - slope (axisVals q 1) 0) (F3 := (jac 1 1).val + E 1 1 - slope (axisVals q 1) 1) (b0 := c 0) (b1 := c 1)
    (r0 := (rhs 0).val - c 0) (r1 := (rhs 1).val - c 1) (x0 := (solution g jac rhs 0).val) (x1 := (solution g jac rhs 1).val) (y0 := y 0) (y1 := y 1)
    h.size h.shape (hs 0 0) (hs 0 1) (hs 1 0) (hs 1 1) hdet (near 0 0 (hE' 0 0)) (near 0 1 (hE' 1 0)) (near 1 0 (hE' 0 1))
      (near 1 1 (hE' 1 1)) (hr 0) (hr 1) (hyc 0) (hyc 1) (by linarith) (by linarith) (hy 0) (hy 1) h.regular
  match k with
  | 0 => exact key.1
  | 1 => exact key.2

theorem clamp_near (h : SearchesFinely rnd g u β Δ ρ L R) (d : Fl rnd) {x e : ℝ} (h0 : 0 ≤ x) (h1 : x ≤ 1) (hd : |d.val - x| ≤ e) :
    |(truncateIndex (0 : Fl rnd) 2 d).val - x| ≤ e := by
  have e2 : (((2 - 1 : Nat) : Nat) : Fl rnd).val = 1 := by
    show rnd (((2 - 1 : Nat) : Nat) : ℝ) = 1
    rw [show (((2 - 1 : Nat) : Nat) : ℝ) = 1 by norm_num, rnd_one h]
  unfold truncateIndex
  dsimp only
  rw [if_neg (not_not.mpr rfl)]
  have he : 0 ≤ e := (abs_nonneg _).trans hd
  rw [abs_le] at hd
  by_cases hn : d < 0
  · have hn' : d.val < 0 := hn
    rw [if_pos hn, if_neg (by show ¬ (((2 - 1 : Nat) : Nat) : Fl rnd).val < (0 : ℝ); rw [e2]; norm_num)]
    show |0 - x| ≤ e
    rw [abs_le]; constructor <;> linarith
  · rw [if_neg hn]
    split_ifs with h2
    · have h2' : 1 < d.val := by have h2'' : (((2 - 1 : Nat) : Nat) : Fl rnd).val < d.val := h2; rw [e2] at h2''; exact h2''
      rw [e2, abs_le]; constructor <;> linarith
    · rw [abs_le]; exact hd

/-- The distance that is compared with the tolerance. -/
theorem small_error (h : SearchesFinely rnd g u β Δ ρ L R) (p t : Fin 2 → Fl rnd) {D : ℝ} (hD : ∀ i, |(p i).val - (t i).val| ≤ D)
    (h3 : 3 * D ≤ 1 / 10 ^ 10) :
    FOps.sqrt ((List.finRange 2).foldl (fun res i => let dp := p i - t i; res + dp * dp) (0 : Fl rnd)) < (flowTol : Fl rnd) := by
  have hu := h.rounds.rel
  have hu2 := h.unit
  have hDp : 0 ≤ D := (abs_nonneg _).trans (hD 0)
  have up : ∀ {x y : ℝ}, 0 ≤ x → x ≤ y → 0 ≤ rnd x ∧ rnd x ≤ (1 + u) * y := by
    intro x y hx hy
    have h1 := rnd_near h.rounds x
    rw [abs_of_nonneg hx, abs_le] at h1
    refine ⟨?_, by nlinarith [h1.2]⟩
    have := h.ints.mono hx
    rw [rnd_zero h.rounds] at this
    exact this
  have sq : ∀ i, 0 ≤ ((p i - t i) * (p i - t i)).val ∧ ((p i - t i) * (p i - t i)).val ≤ (1 + u) ^ 3 * D ^ 2 := by
    intro i
    rw [Fl.mul_val, Fl.sub_val]
    have h1 := rnd_near h.rounds ((p i).val - (t i).val)
    have h2 := abs_add_le ((p i).val - (t i).val) (rnd ((p i).val - (t i).val) - ((p i).val - (t i).val))
    rw [add_sub_cancel] at h2
    have h4 : |rnd ((p i).val - (t i).val)| ≤ (1 + u) * D := by
      have := hD i
      nlinarith
    have h5 : rnd ((p i).val - (t i).val) * rnd ((p i).val - (t i).val) ≤ (1 + u) ^ 2 * D ^ 2 := by
      rw [← abs_mul_abs_self]
      have := mul_le_mul h4 h4 (abs_nonneg _) (by positivity)
      calc _ ≤ _ := this
        _ = _ := by ring
    obtain ⟨a1, a2⟩ := up (mul_self_nonneg _) h5
    exact ⟨a1, a2.trans (le_of_eq (by ring))⟩
  have hsum : ∀ s, s = (List.finRange 2).foldl (fun res i => let dp := p i - t i; res + dp * dp) (0 : Fl rnd) →
      0 ≤ s.val ∧ s.val ≤ 2 * (1 + u) ^ 5 * D ^ 2 := by
    rintro s rfl
    show 0 ≤ (0 + (p 0 - t 0) * (p 0 - t 0) + (p 1 - t 1) * (p 1 - t 1) : Fl rnd).val ∧
      (0 + (p 0 - t 0) * (p 0 - t 0) + (p 1 - t 1) * (p 1 - t 1) : Fl rnd).val ≤ _
    rw [Fl.add_val, Fl.add_val, Fl.zero_val, zero_add]
    obtain ⟨b1, b2⟩ := up (sq 0).1 (sq 0).2
    have hq : (1 + u) ^ 3 * D ^ 2 ≤ (1 + u) * ((1 + u) ^ 3 * D ^ 2) := le_mul_of_one_le_left (by positivity) (by linarith)
    obtain ⟨c1, c2⟩ := up (add_nonneg b1 (sq 1).1) (add_le_add b2 ((sq 1).2.trans hq))
    exact ⟨c1, c2.trans (le_of_eq (by ring))⟩
  obtain ⟨g1, g2⟩ := hsum _ rfl
  set s := (List.finRange 2).foldl (fun res i => let dp := p i - t i; res + dp * dp) (0 : Fl rnd)
  have hu1 : (1 + u) ^ 5 ≤ 9 / 8 := by
    have : (1 + u) ^ 5 ≤ (1 + 1 / 10 ^ 14 : ℝ) ^ 5 := pow_le_pow_left₀ (by linarith) (by linarith) 5
    exact this.trans (by norm_num)
  have hsq : Real.sqrt s.val ≤ 3 / 2 * D := by
    refine Real.sqrt_le_iff.mpr ⟨by positivity, g2.trans ?_⟩
    nlinarith [mul_le_mul_of_nonneg_right hu1 (sq_nonneg D)]
  obtain ⟨-, j2⟩ := up (Real.sqrt_nonneg _) hsq
  show rnd (Real.sqrt s.val) < rnd (rnd ((1 : Nat) : ℝ) / rnd ((10000000000 : Nat) : ℝ))
  rw [h.ints.int 1 (by norm_num), h.ints.int 10000000000 le_rfl]
  have hn := rnd_near h.rounds (((1 : Nat) : ℝ) / ((10000000000 : Nat) : ℝ))
  have hv : ((1 : Nat) : ℝ) / ((10000000000 : Nat) : ℝ) = 1 / 10 ^ 10 := by norm_num
  rw [hv, abs_of_pos (show (0 : ℝ) < 1 / 10 ^ 10 by norm_num), abs_le] at hn
  rw [hv]
  have e1 : (1 + u) * (3 / 2 * D) ≤ (1 + 1 / 10 ^ 14) * (3 / 2 * (1 / 3 * (1 / 10 ^ 10))) := by
    refine mul_le_mul (by linarith) (by linarith) (by positivity) (by norm_num)
  have e2 : (1 + 1 / 10 ^ 14) * (3 / 2 * (1 / 3 * (1 / 10 ^ 10))) < (1 : ℝ) / 10 ^ 10 - 1 / 10 ^ 14 * (1 / 10 ^ 10) := by norm_num
  have e3 : u * (1 / 10 ^ 10) ≤ (1 : ℝ) / 10 ^ 14 * (1 / 10 ^ 10) := mul_le_mul_of_nonneg_right hu2 (by norm_num)
  linarith [hn.1]

theorem bilin_between {v : Fin 4 → ℝ} {m M : ℝ} (hv : ∀ i, m ≤ v i ∧ v i ≤ M) {x : Fin 2 → ℝ} (hx : InCell x) : m ≤ bilin v x ∧ bilin v x ≤ M := by
  unfold bilin
  obtain ⟨a0, a1⟩ := hx 0
  obtain ⟨b0, b1⟩ := hx 1
  have w0 : 0 ≤ (1 - x 0) * (1 - x 1) := mul_nonneg (by linarith) (by linarith)
  have w1 : 0 ≤ x 0 * (1 - x 1) := mul_nonneg a0 (by linarith)
  have w2 : 0 ≤ x 0 * x 1 := mul_nonneg a0 b0
  have w3 : 0 ≤ (1 - x 0) * x 1 := mul_nonneg (by linarith) b0
  have e : (1 - x 0) * (1 - x 1) + x 0 * (1 - x 1) + x 0 * x 1 + (1 - x 0) * x 1 = 1 := by ring
  constructor
  · nlinarith [mul_le_mul_of_nonneg_left (hv 0).1 w0, mul_le_mul_of_nonneg_left (hv 1).1 w1, mul_le_mul_of_nonneg_left (hv 2).1 w2,
      mul_le_mul_of_nonneg_left (hv 3).1 w3]
  · nlinarith [mul_le_mul_of_nonneg_left (hv 0).2 w0, mul_le_mul_of_nonneg_left (hv 1).2 w1, mul_le_mul_of_nonneg_left (hv 2).2 w2,
      mul_le_mul_of_nonneg_left (hv 3).2 w3]

/-- The test that the point is in the box is passed. -/
theorem inside_fl (h : SearchesFinely rnd g u β Δ ρ L R) {q : Quad (Fl rnd)} (hc : FairCell Δ L R (valQuad q)) {s : Finder (Fl rnd) 2}
    (b : (Fin 2 → Fl rnd) × (Fin 2 → Fl rnd)) (hb : ∀ k i, (b.1 k).val ≤ (comp (q i) k).val ∧ (comp (q i) k).val ≤ (b.2 k).val)
    (x : Fin 2 → ℝ) (hx : InCell x) (ht : ∀ k, |(s.targetPoint k).val - bilin (axisVals q k) x| ≤ ρ) : s.inside b = true := by
  have hu := h.rounds.rel
  unfold Finder.inside
  rw [List.all_eq_true]
  intro k _
  rw [Bool.and_eq_true, decide_eq_true_iff, decide_eq_true_iff]
  have eps : (2 : ℝ) / 10 ^ 14 ≤ rnd (100 / 2 ^ 52) ∧ rnd (100 / 2 ^ 52) ≤ 1 := by
    have h1 := rnd_near h.rounds (100 / 2 ^ 52)
    rw [abs_of_pos (show (0 : ℝ) < 100 / 2 ^ 52 by norm_num), abs_le] at h1
    have h2 : u * (100 / 2 ^ 52) ≤ 1 / 10 ^ 14 * (100 / 2 ^ 52) := mul_le_mul_of_nonneg_right h.unit (by norm_num)
    constructor
    · refine le_trans ?_ (show (100 : ℝ) / 2 ^ 52 - 1 / 10 ^ 14 * (100 / 2 ^ 52) ≤ _ by linarith [h1.1])
      norm_num
    · refine le_trans (show _ ≤ (100 : ℝ) / 2 ^ 52 + 1 / 10 ^ 14 * (100 / 2 ^ 52) by linarith [h1.2]) ?_
      norm_num
  set ε := rnd (100 / 2 ^ 52) with hε
  set m := bilin (axisVals q k) x with hm
  have hmb : (b.1 k).val ≤ m ∧ m ≤ (b.2 k).val := bilin_between (fun i => hb k i) hx
  have hmR : |m| ≤ R := by
    rw [abs_le]
    exact bilin_between (fun i => abs_le.mp ((fair_axis hc k).2.2.2 i)) hx
  have hin := h.inside
  have t := abs_le.mp (ht k)
  have size : ∀ {y : ℝ}, |y| ≤ R + 1 → |rnd y - y| ≤ u * (R + 1) := fun {y} hy =>
    (rnd_near h.rounds y).trans (mul_le_mul_of_nonneg_left hy hu)
  have m' := abs_le.mp hmR
  constructor
  · show rnd ((b.1 k).val - ε) ≤ (s.targetPoint k).val
    have h1 := h.ints.mono (show (b.1 k).val - ε ≤ m - ε by linarith [hmb.1])
    have h2 := abs_le.mp (size (y := m - ε) (by rw [abs_le]; constructor <;> linarith [eps.1, eps.2, m'.1, m'.2]))
    linarith [h2.2, eps.1, t.1]
  · show (s.targetPoint k).val ≤ rnd ((b.2 k).val + ε)
    have h1 := h.ints.mono (show m + ε ≤ (b.2 k).val + ε by linarith [hmb.2])
    have h2 := abs_le.mp (size (y := m + ε) (by rw [abs_le]; constructor <;> linarith [eps.1, eps.2, m'.1, m'.2]))
    linarith [h2.1, eps.1, t.2]

/-- A search in a fair cell succeeds in one step. -/
theorem find_fl (h : SearchesFinely rnd g u β Δ ρ L R) {q : Quad (Fl rnd)} (hc : FairCell Δ L R (valQuad q)) {f : Finder (Fl rnd) 2}
    (hf : FlQuad q f) (p : Pt (Fl rnd)) (x : Fin 2 → ℝ) (hx : InCell x) (hp : ∀ k, |(comp p k).val - bilin (axisVals q k) x| ≤ ρ) :
    ∃ d f', findIndices g f p = .ok (1, d, f') ∧ FlQuad q f' ∧ InCell (vals d) ∧ ∀ k, |(d k).val - x k| ≤ indexError u β Δ ρ L R := by
  have hu := h.rounds.rel
  have hk : FindPoint.KeepsSizes g := h.stable.sizes
  set s : Finder (Fl rnd) 2 := f.reset (fun _ => 1 / (1 + 1)) (comp p) with hs
  obtain ⟨⟨b, hb⟩, slvr, hsl, hok⟩ := hf.ready
  have hmid : ∀ k, bilin (axisVals q k) x - bilin (axisVals q k) (fun _ => 1 / 2) = slope (axisVals q k) 0 * (x 0 - 1 / 2) + slope (axisVals q k) 1 * (x 1 - 1 / 2) := by
    intro k
    rw [bilin_slope _ (fair_axis hc k).1, bilin_slope _ (fair_axis hc k).1]
    ring
  have hy : ∀ k, |x k - 1 / 2| ≤ 1 / 2 := by
    intro k; obtain ⟨h0, h1⟩ := hx k; rw [abs_le]; constructor <;> linarith
  have hsl' : ∀ i j, |slope (axisVals q i) j| ≤ L := by
    intro i j
    match j with
    | 0 => exact (fair_axis hc i).2.1
    | 1 => exact (fair_axis hc i).2.2.1
  have hoff : ∀ k, |bilin (axisVals q k) x - bilin (axisVals q k) (fun _ => 1 / 2)| ≤ L := by
    intro k
    rw [hmid]
    have t1 : |slope (axisVals q k) 0 * (x 0 - 1 / 2)| ≤ L * (1 / 2) := by rw [abs_mul]; exact mul_le_mul (hsl' k 0) (hy 0) (abs_nonneg _) h.size.le
    have t2 : |slope (axisVals q k) 1 * (x 1 - 1 / 2)| ≤ L * (1 / 2) := by rw [abs_mul]; exact mul_le_mul (hsl' k 1) (hy 1) (abs_nonneg _) h.size.le
    have := abs_add_le (slope (axisVals q k) 0 * (x 0 - 1 / 2)) (slope (axisVals q k) 1 * (x 1 - 1 / 2))
    linarith
  obtain ⟨jac, rhs, hj, hj1, hj2⟩ := jac_near h hc (s := s) hf.dims hf.coords rfl (fun k => bilin (axisVals q k) x) hp hoff
  have hsol := solution_near h hc jac rhs _ hj1 hj2 (fun k => x k - 1 / 2) hy (fun i => (hmid i).symm)
  set e := 4 * (offsetError u ρ L R + matrixError u β L R) / (Δ * L) with he
  have hd : ∀ k, |(s.moved g jac rhs k).val - x k| ≤ indexError u β Δ ρ L R := by
    intro k
    have hper : s.indexPeriodicity k = 0 := congrFun hf.per k
    have hdim : s.dims k = 2 := congrFun hf.dims k
    unfold Finder.moved
    rw [hper, hdim]
    refine clamp_near h _ (hx k).1 (hx k).2 ?_
    have hm : (s.dIndices k).val = 1 / 2 := middle_val h k
    rw [Fl.add_val, hm]
    have h1 := hsol k
    set y := (solution g jac rhs k).val
    have h2 : |1 / 2 + y - x k| ≤ e := by
      rw [show 1 / 2 + y - x k = y - (x k - 1 / 2) by ring]; exact h1
    have h3 : |1 / 2 + y| ≤ 1 + e := by
      have := abs_add_le (x k) (1 / 2 + y - x k)
      rw [add_sub_cancel, abs_of_nonneg (hx k).1] at this
      linarith [(hx k).2]
    have h4 := (rnd_near h.rounds (1 / 2 + y)).trans (mul_le_mul_of_nonneg_left h3 hu)
    have h5 := abs_sub_le (rnd (1 / 2 + y)) (1 / 2 + y) (x k)
    unfold indexError
    rw [← he]
    linarith
  have hin : InCell (vals (s.moved g jac rhs)) := by
    refine inGrid_inCell fun k => ?_
    have hdim : s.dims k = 2 := congrFun hf.dims k
    unfold Finder.moved vals
    dsimp only
    rw [hdim]
    exact truncate_fl h.ints _ 2 le_rfl (by norm_num) _
  set s' : Finder (Fl rnd) 2 := { s with
    slvr := some (afterSolve g 2 slvr (flatten2 jac) (flatten1 rhs))
    dIndices := s.moved g jac rhs } with hs'
  have hpos : ∀ k, ∃ w, interp s'.dims s'.dIndices (s'.coords k) = .ok w ∧ |w.val - bilin (axisVals q k) (vals (s.moved g jac rhs))| ≤ coordError u * R := by
    intro k
    have hdim : s'.dims = fun _ => 2 := hf.dims
    have hco : s'.coords k = gridList fun i => comp (q i) k := hf.coords k
    rw [hdim, hco]
    exact interp_fl2 h.rounds h.ints (by norm_num) _ (fair_axis hc k).2.2.2 _ (inCell_inGrid hin)
  choose w hw1 hw2 using hpos
  have hgp : s'.getPosition = .ok w := forAxes_ok _ w hw1
  have hD : ∀ k, |(w k).val - (s'.targetPoint k).val| ≤ coordError u * R + 2 * L * indexError u β Δ ρ L R + ρ := by
    intro k
    have e1 := hw2 k
    have e2 := hp k
    have e3 : |bilin (axisVals q k) (vals (s.moved g jac rhs)) - bilin (axisVals q k) x| ≤ 2 * L * indexError u β Δ ρ L R := by
      rw [bilin_slope _ (fair_axis hc k).1, bilin_slope _ (fair_axis hc k).1]
      have t1 : |slope (axisVals q k) 0 * (vals (s.moved g jac rhs) 0 - x 0)| ≤ L * indexError u β Δ ρ L R := by
        rw [abs_mul]; exact mul_le_mul (hsl' k 0) (hd 0) (abs_nonneg _) h.size.le
      have t2 : |slope (axisVals q k) 1 * (vals (s.moved g jac rhs) 1 - x 1)| ≤ L * indexError u β Δ ρ L R := by
        rw [abs_mul]; exact mul_le_mul (hsl' k 1) (hd 1) (abs_nonneg _) h.size.le
      have := abs_add_le (slope (axisVals q k) 0 * (vals (s.moved g jac rhs) 0 - x 0)) (slope (axisVals q k) 1 * (vals (s.moved g jac rhs) 1 - x 1))
      refine le_trans (le_of_eq (congrArg _ ?_)) (this.trans (by linarith))
      ring
    have et : (s'.targetPoint k).val = (comp p k).val := rfl
    rw [et]
    rw [abs_le] at *
    constructor <;> linarith [e1.1, e1.2, e2.1, e2.2, e3.1, e3.2]
  have hsmall := small_error h w s'.targetPoint hD h.found
  set err := FOps.sqrt ((List.finRange 2).foldl (fun res i => let dp := w i - s'.targetPoint i; res + dp * dp) (0 : Fl rnd)) with herr
  have hge : s'.getError = .ok err := by
    unfold Finder.getError
    rw [hgp]
    rfl
  have hnit : s'.nitermax = 10 := hf.nitermax
  have htol : s'.tolpos = flowTol := hf.tolpos
  have hfin : (s'.finishStep err).1 = 1 ∧ (s'.finishStep err).2.dIndices = s.moved g jac rhs := by
    unfold Finder.finishStep
    dsimp only
    rw [if_neg (by rintro ⟨-, h3, -⟩; exact absurd h3 (by simp [hs', hs, Finder.reset])), if_neg (by rw [hnit]; simp [hs', hs, Finder.reset]), if_pos (by rw [htol]; exact hsmall)]
    exact ⟨rfl, rfl⟩
  have hnext : s.next g = .ok (s'.finishStep err) := by
    rw [next_eq g hk (by norm_num) s b hb slvr hsl hok]
    have hins : s.inside b = true := inside_fl h hc b (hf.bounds b hb) x hx hp
    rw [hins, if_neg (by simp), hj]
    show (s'.getError >>= fun e => Except.ok (s'.finishStep e)) = _
    rw [hge]
    rfl
  have hfu : s.fuelOf = 9 + 1 := by
    unfold Finder.fuelOf
    have : s.nitermax = 10 := hf.nitermax
    rw [this]
    rfl
  have hloop : searchLoop g s.fuelOf s = .ok (s'.finishStep err) := by
    rw [hfu]
    unfold searchLoop
    rw [hnext]
    simp only [bind, Except.bind]
    rw [if_neg (by rw [hfin.1]; norm_num)]
    rfl
  have hr2 := loop_frame g hk (by norm_num) s.fuelOf s _ _ (FindPoint.ready_reset f _ _ hf.ready) hloop
  refine ⟨s.moved g jac rhs, (s'.finishStep err).2, ?_, ?_, hin, hd⟩
  · show (searchLoop g s.fuelOf s >>= fun r => Except.ok (r.1, r.2.dIndices, r.2)) = _
    rw [hloop]
    show Except.ok ((s'.finishStep err).1, (s'.finishStep err).2.dIndices, (s'.finishStep err).2) = _
    rw [hfin.1, hfin.2]
  · exact FlQuad.same (f := s) ⟨hf.ready, hf.dims, hf.coords, hf.per, hf.nitermax, hf.tolpos, hf.bounds⟩ hr2.1 hr2.2.1

end Sg.QuadFlows
