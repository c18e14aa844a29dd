import Verif.Proof.Curvature
import Verif.Props.FlowPotential
import Verif.Props.Grids
/-
Property C119: the flow of a stream function sampled at the nodes of a sheared product grid.  `g` is the linear algebra library,
`srt` is `std::sort` and `pert` the perturbation of the nodes of the line.
-/
namespace Sg.Props
open Sg Sg.FlowInterp Sg.QuadIntersect Sg.QuadFlows Sg.LinearSolve Sg.Triangulate Sg.FindPoint Sg.QuadLine Sg.Spec Sg.Plane Sg.Grids

/-- The points of the segment from `(ua, va)` to `(ub, vb)` in the grid are those with parameters from `s` to `t`. -/
def InGridFromTo (n0 n1 : Nat) (X Y : Nat → ℝ) (ua va ub vb s t : ℝ) : Prop :=
  ∀ p, 0 ≤ p → p ≤ 1 →
    (((X 0 ≤ ua + p * (ub - ua) ∧ ua + p * (ub - ua) ≤ X (n0 - 1)) ∧ Y 0 ≤ va + p * (vb - va) ∧ va + p * (vb - va) ≤ Y (n1 - 1)) ↔
      s ≤ p ∧ p ≤ t)

/-- **C119** a segment that is in the grid from the parameter `s` to the parameter `t` only: its flow is the difference of the
interpolated potential between these two points. -/
theorem C119_part (pert : Nat → Nat → Nat → ℝ) (g : Gels ℝ) (hg : GelsContract g) (srt : List ℝ → List ℝ)
    (hsrt : ∀ l, SortsTo l (srt l)) (n0 n1 : Nat) (h0 : 2 ≤ n0) (h1 : 2 ≤ n1) (hf : n0 * n1 ≤ 1073741824) (xs ys : List ℝ)
    (hx : n0 * n1 ≤ xs.length) (hy : n0 * n1 ≤ ys.length) (n : Nat) (hn : 1 ≤ n) (us vs : List ℝ) (hu : n ≤ us.length)
    (hv : n ≤ vs.length) (X Y : Nat → ℝ) (c e0 e1 : ℝ × ℝ) (hT : TensorGrid n0 n1 X Y c e0 e1 xs ys)
    (phi : Nat → Nat → ℝ) (x y : List ℝ) (hp : PotentialData n0 n1 phi x y) (d : List ℝ) (hd : n - 1 ≤ d.length)
    (U V : Nat → ℝ) (hUV : ∀ k < n, movedNode pert n us vs k = c + U k • e0 + V k • e1) :
    ∃ d', flowWith pert g srt [] n0 n1 xs ys n us vs 1 x y d = .ok d' ∧
      ∀ k < n - 1, ∀ s t, 0 ≤ s → s < t → t ≤ 1 → InGridFromTo n0 n1 X Y (U k) (V k) (U (k + 1)) (V (k + 1)) s t →
        NotAlong n0 n1 X Y (U k) (V k) (U (k + 1)) (V (k + 1)) →
        (∀ i < n0 - 1, ∀ j < n1 - 1,
          ClearLine (gridQuad n1 xs ys i j) (movedNode pert n us vs k) (movedNode pert n us vs (k + 1))) →
        d'[k]? = some (tensorInterp n0 n1 X Y phi (U k + t * (U (k + 1) - U k)) (V k + t * (V (k + 1) - V k)) -
          tensorInterp n0 n1 X Y phi (U k + s * (U (k + 1) - U k)) (V k + s * (V (k + 1) - V k))) := by
  obtain ⟨S, hS, hrun⟩ := flow_once pert g hg.sizes srt n0 n1 h0 h1 hf xs ys hx hy n hn us vs hu hv
  obtain ⟨d', e, -, -, hd'⟩ := hrun phi x y hp d hd
  refine ⟨d', e, fun k hk s t hs hst ht hin hna hclear => ?_⟩
  have hsp : ∀ {k}, k < (n0 - 1) * (n1 - 1) → k / (n1 - 1) < n0 - 1 ∧ k % (n1 - 1) < n1 - 1 := fun hk => (cell_split hk).2.2
  have ea := hUV k (by omega)
  have eb := hUV (k + 1) (by omega)
  have hX' : ∀ i, i < n0 - 1 → X i < X (i + 1) := fun i hi => hT.incX i (by omega)
  have hY' : ∀ i, i < n1 - 1 → Y i < Y (i + 1) := fun i hi => hT.incY i (by omega)
  obtain ⟨hne, hsum⟩ := cells_potential_part hg hsrt ((n0 - 1) * (n1 - 1)) (fun j => gridQuad n1 xs ys (j / (n1 - 1)) (j % (n1 - 1)))
    (fun j hj => tensor_parallelogram hT (hsp hj).1 (hsp hj).2) (movedNode pert n us vs k) (movedNode pert n us vs (k + 1))
    (fun j hj => hclear _ (hsp hj).1 _ (hsp hj).2) (S k) (hS k hk)
    (fun j => cellPhi phi (j / (n1 - 1)) (j % (n1 - 1))) (fun p => tensorInterp n0 n1 X Y phi (uOf c e0 e1 p) (vOf c e0 e1 p))
    (fun j hj t ht => tensor_phi hT phi (hsp hj).1 (hsp hj).2 ht) hs ht hst
    (by
      intro p hp0 hp1
      obtain ⟨⟨a1, a2⟩, b1, b2⟩ := (hin p (by linarith) (by linarith)).2 ⟨hp0.le, hp1.le⟩
      obtain ⟨i, hi, hi'⟩ := exists_cell (by omega) a1 a2
      obtain ⟨j, hj, hj'⟩ := exists_cell (by omega) b1 b2
      refine ⟨i * (n1 - 1) + j, cell_lt hi hj, ?_⟩
      have e1 : (i * (n1 - 1) + j) / (n1 - 1) = i := by
        rw [Nat.add_comm, Nat.add_mul_div_right _ _ (by omega), Nat.div_eq_of_lt hj, Nat.zero_add]
      have e2 : (i * (n1 - 1) + j) % (n1 - 1) = j := by
        rw [Nat.add_comm, Nat.add_mul_mod_self_right, Nat.mod_eq_of_lt hj]
      rw [ea, eb, line_uv, e1, e2, tensor_region hT hi hj]
      exact ⟨hi', hj'⟩)
    (by
      intro j hj p hp
      obtain ⟨p0, p1, hr⟩ := hp
      rw [ea, eb, line_uv, tensor_region hT (hsp hj).1 (hsp hj).2] at hr
      obtain ⟨⟨a1, a2⟩, b1, b2⟩ := hr
      exact (hin p p0 p1).1 ⟨⟨(inc_le hX' (Nat.zero_le _) (hsp hj).1.le).trans a1, a2.trans (inc_le hX' (hsp hj).1 le_rfl)⟩,
        (inc_le hY' (Nat.zero_le _) (hsp hj).2.le).trans b1, b2.trans (inc_le hY' (hsp hj).2 le_rfl)⟩)
    (by rw [ea, eb]; exact tensor_once hT hna)
  rw [hd' k hk, if_neg hne, hsum]
  rw [ea, eb, line_uv, line_uv, (uv_point hT.det _ _).1, (uv_point hT.det _ _).2, (uv_point hT.det _ _).1, (uv_point hT.det _ _).2]

/-- **C119** accuracy of one segment.  If the second derivatives of the stream function along the axes of the grid are at most `M0`
and `M1` in size and the cells at most `w0` and `w1` wide, the flow differs by at most `(M0 w0² + M1 w1²) / 4` from the
difference of the stream function between the points where the segment enters and leaves the grid. -/
theorem C119_segment (pert : Nat → Nat → Nat → ℝ) (g : Gels ℝ) (hg : GelsContract g) (srt : List ℝ → List ℝ)
    (hsrt : ∀ l, SortsTo l (srt l)) (n0 n1 : Nat) (h0 : 2 ≤ n0) (h1 : 2 ≤ n1) (hf : n0 * n1 ≤ 1073741824) (xs ys : List ℝ)
    (hx : n0 * n1 ≤ xs.length) (hy : n0 * n1 ≤ ys.length) (n : Nat) (hn : 1 ≤ n) (us vs : List ℝ) (hu : n ≤ us.length)
    (hv : n ≤ vs.length) (X Y : Nat → ℝ) (c e0 e1 : ℝ × ℝ) (hT : TensorGrid n0 n1 X Y c e0 e1 xs ys)
    (w0 w1 : ℝ) (hw : WidthsAtMost n0 n1 X Y w0 w1) (ψ : ℝ × ℝ → ℝ) (M0 M1 : ℝ) (hM0 : 0 ≤ M0) (hM1 : 0 ≤ M1)
    (hψ : BendsOn n0 n1 X Y c e0 e1 ψ M0 M1)
    (x y : List ℝ) (hp : PotentialData n0 n1 (fun i j => ψ (c + X i • e0 + Y j • e1)) x y) (d : List ℝ) (hd : n - 1 ≤ d.length)
    (U V : Nat → ℝ) (hUV : ∀ k < n, movedNode pert n us vs k = c + U k • e0 + V k • e1) :
    ∃ d', flowWith pert g srt [] n0 n1 xs ys n us vs 1 x y d = .ok d' ∧
      ∀ k < n - 1, ∀ a b, a = movedNode pert n us vs k → b = movedNode pert n us vs (k + 1) →
        ∀ s t, 0 ≤ s → s < t → t ≤ 1 → InGridFromTo n0 n1 X Y (U k) (V k) (U (k + 1)) (V (k + 1)) s t →
        NotAlong n0 n1 X Y (U k) (V k) (U (k + 1)) (V (k + 1)) →
        (∀ i < n0 - 1, ∀ j < n1 - 1, ClearLine (gridQuad n1 xs ys i j) a b) →
        ∃ w, d'[k]? = some w ∧ |w - (ψ (a + t • (b - a)) - ψ (a + s • (b - a)))| ≤ (M0 * w0 ^ 2 + M1 * w1 ^ 2) / 4 := by
  obtain ⟨d', e, hd'⟩ := C119_part pert g hg srt hsrt n0 n1 h0 h1 hf xs ys hx hy n hn us vs hu hv X Y c e0 e1 hT _ x y hp d hd U V hUV
  refine ⟨d', e, fun k hk a b ea eb s t hs hst ht hin hna hclear => ⟨_, hd' k hk s t hs hst ht hin hna (by rw [← ea, ← eb]; exact hclear), ?_⟩⟩
  rw [ea, eb, hUV k (by omega), hUV (k + 1) (by omega), line_uv, line_uv]
  obtain ⟨t1, t2⟩ := (hin t (by linarith) ht).2 ⟨hst.le, le_rfl⟩
  obtain ⟨s1, s2⟩ := (hin s hs (by linarith)).2 ⟨le_rfl, hst.le⟩
  have k1 := tensor_error h0 h1 hT.incX hT.incY hw hM0 hM1 hψ (fun _ _ _ _ => rfl) t1 t2
  have k2 := tensor_error h0 h1 hT.incX hT.incY hw hM0 hM1 hψ (fun _ _ _ _ => rfl) s1 s2
  rw [abs_le] at k1 k2 ⊢
  constructor <;> linarith [k1.1, k1.2, k2.1, k2.2]

/-- **C119** accuracy of a line in the grid: the sum of the flows of all its segments differs by at most `(M0 w0² + M1 w1²) / 4`
from the difference of the stream function between its ends, however many segments and cells there are. -/
theorem C119_line (pert : Nat → Nat → Nat → ℝ) (g : Gels ℝ) (hg : GelsContract g) (srt : List ℝ → List ℝ)
    (hsrt : ∀ l, SortsTo l (srt l)) (n0 n1 : Nat) (h0 : 2 ≤ n0) (h1 : 2 ≤ n1) (hf : n0 * n1 ≤ 1073741824) (xs ys : List ℝ)
    (hx : n0 * n1 ≤ xs.length) (hy : n0 * n1 ≤ ys.length) (n : Nat) (hn : 1 ≤ n) (us vs : List ℝ) (hu : n ≤ us.length)
    (hv : n ≤ vs.length) (X Y : Nat → ℝ) (c e0 e1 : ℝ × ℝ) (hT : TensorGrid n0 n1 X Y c e0 e1 xs ys)
    (w0 w1 : ℝ) (hw : WidthsAtMost n0 n1 X Y w0 w1) (ψ : ℝ × ℝ → ℝ) (M0 M1 : ℝ) (hM0 : 0 ≤ M0) (hM1 : 0 ≤ M1)
    (hψ : BendsOn n0 n1 X Y c e0 e1 ψ M0 M1)
    (x y : List ℝ) (hp : PotentialData n0 n1 (fun i j => ψ (c + X i • e0 + Y j • e1)) x y) (d : List ℝ) (hd : n - 1 ≤ d.length)
    (U V : Nat → ℝ) (hUV : ∀ k < n, movedNode pert n us vs k = c + U k • e0 + V k • e1)
    (hin : ∀ k < n, (X 0 ≤ U k ∧ U k ≤ X (n0 - 1)) ∧ Y 0 ≤ V k ∧ V k ≤ Y (n1 - 1))
    (hna : ∀ k < n - 1, NotAlong n0 n1 X Y (U k) (V k) (U (k + 1)) (V (k + 1)))
    (hclear : ∀ k < n - 1, ∀ i < n0 - 1, ∀ j < n1 - 1,
      ClearLine (gridQuad n1 xs ys i j) (movedNode pert n us vs k) (movedNode pert n us vs (k + 1))) :
    ∃ d', flowWith pert g srt [] n0 n1 xs ys n us vs 1 x y d = .ok d' ∧
      |(d'.take (n - 1)).sum - (ψ (movedNode pert n us vs (n - 1)) - ψ (movedNode pert n us vs 0))| ≤ (M0 * w0 ^ 2 + M1 * w1 ^ 2) / 4 := by
  obtain ⟨d', e, hs, -⟩ := C70_loop pert g hg srt hsrt n0 n1 h0 h1 hf xs ys hx hy n hn us vs hu hv X Y c e0 e1 hT _ x y hp d hd U V hUV hin hna hclear
  refine ⟨d', e, ?_⟩
  rw [hs, hUV _ (by omega), hUV 0 (by omega)]
  have k1 := tensor_error h0 h1 hT.incX hT.incY hw hM0 hM1 hψ (fun _ _ _ _ => rfl) (hin (n - 1) (by omega)).1 (hin (n - 1) (by omega)).2
  have k2 := tensor_error h0 h1 hT.incX hT.incY hw hM0 hM1 hψ (fun _ _ _ _ => rfl) (hin 0 (by omega)).1 (hin 0 (by omega)).2
  rw [abs_le] at k1 k2 ⊢
  constructor <;> linarith [k1.1, k1.2, k2.1, k2.2]

/-- Node `i` of `n` equally spaced ones from `lo` to `hi`. -/
noncomputable def equallySpaced (n : Nat) (lo hi : ℝ) (i : Nat) : ℝ := lo + (i : ℝ) * (hi - lo) / ((n : ℝ) - 1)

theorem rectangular_tensor (n0 n1 : Nat) (h0 : 2 ≤ n0) (h1 : 2 ≤ n1) (lo hi : ℝ × ℝ) (hlo : lo.1 < hi.1 ∧ lo.2 < hi.2) (c : List ℝ × List ℝ)
    (hc0 : n0 * n1 ≤ c.1.length) (hc1 : n0 * n1 ≤ c.2.length) :
    ∃ r, createRectangularGrid n0 n1 lo hi c = .ok r ∧ n0 * n1 ≤ r.1.length ∧ n0 * n1 ≤ r.2.length ∧
      TensorGrid n0 n1 (equallySpaced n0 lo.1 hi.1) (equallySpaced n1 lo.2 hi.2) 0 (1, 0) (0, 1) r.1 r.2 ∧
      WidthsAtMost n0 n1 (equallySpaced n0 lo.1 hi.1) (equallySpaced n1 lo.2 hi.2) ((hi.1 - lo.1) / ((n0 : ℝ) - 1)) ((hi.2 - lo.2) / ((n1 : ℝ) - 1)) ∧
      (∀ i j, i < n0 → j < n1 → r.1.getD (i * n1 + j) 0 = equallySpaced n0 lo.1 hi.1 i ∧ r.2.getD (i * n1 + j) 0 = equallySpaced n1 lo.2 hi.2 j) := by
  obtain ⟨r, hr, hv, -⟩ := C24_rectangular n0 n1 h0 h1 lo hi c hc0 hc1
  have hlast := hv (n0 - 1) (n1 - 1) (by omega) (by omega)
  have hidx : (n0 - 1) * n1 + (n1 - 1) + 1 = n0 * n1 := by
    obtain ⟨a, rfl⟩ : ∃ a, n0 = a + 1 := ⟨n0 - 1, by omega⟩
    obtain ⟨b, rfl⟩ : ∃ b, n1 = b + 1 := ⟨n1 - 1, by omega⟩
    simp only [Nat.add_sub_cancel]; ring
  have hn : ∀ i j, i < n0 → j < n1 → r.1.getD (i * n1 + j) 0 = equallySpaced n0 lo.1 hi.1 i ∧ r.2.getD (i * n1 + j) 0 = equallySpaced n1 lo.2 hi.2 j := by
    intro i j hi' hj'
    obtain ⟨v1, v2⟩ := hv i j hi' hj'
    simp only [List.getD_eq_getElem?_getD, v1, v2, Option.getD_some, equallySpaced, and_self]
  refine ⟨r, hr, ?_, ?_, ⟨?_, ?_, by norm_num, ?_⟩, ⟨?_, ?_⟩, hn⟩
  · have := (List.getElem?_eq_some_iff.mp hlast.1).1
    omega
  · have := (List.getElem?_eq_some_iff.mp hlast.2).1
    omega
  · exact fun i _ => (C24_rectangular_corners n0 h0 lo.1 hi.1 hlo.1).2.2 i (i + 1) (Nat.lt_succ_self i)
  · exact fun j _ => (C24_rectangular_corners n1 h1 lo.2 hi.2 hlo.2).2.2 j (j + 1) (Nat.lt_succ_self j)
  · intro i j hi' hj'
    obtain ⟨v1, v2⟩ := hn i j hi' hj'
    unfold nodePlace
    dsimp only
    rw [v1, v2]
    ext <;> simp
  · intro i _
    simp only [equallySpaced]
    push_cast
    exact le_of_eq (by ring)
  · intro i _
    simp only [equallySpaced]
    push_cast
    exact le_of_eq (by ring)

/-- **C119** on a grid made by `createRectangularGrid`.  The stream function has second derivatives `ψ00` in x and `ψ11` in y of at
most `M0` and `M1` in size in the rectangle, and moving a point into it by `(a, b)`, at most `ε` along each axis, changes it by
at most `L (|a| + |b|)`.  The data are its differences between the nodes of the grid.  The line, its nodes being moved by at most `ε`, is in the rectangle, does not run along a grid
line and no decision about it is closer than the tolerance of the intersector.  Then the sum of the flows differs from the difference
of the stream function between the two ends given by the caller by at most a quarter of the sum of the second derivatives
times the squares of the cell widths, and what the move of the ends makes. -/
theorem C119_rectangular (pert : Nat → Nat → Nat → ℝ) (g : Gels ℝ) (hg : GelsContract g) (srt : List ℝ → List ℝ)
    (hsrt : ∀ l, SortsTo l (srt l)) (n0 n1 : Nat) (h0 : 2 ≤ n0) (h1 : 2 ≤ n1) (hf : n0 * n1 ≤ 1073741824) (lo hi : ℝ × ℝ)
    (hlo : lo.1 < hi.1 ∧ lo.2 < hi.2) (c : List ℝ × List ℝ) (hc0 : n0 * n1 ≤ c.1.length) (hc1 : n0 * n1 ≤ c.2.length)
    (ψ ψ0 ψ1 ψ00 ψ11 : ℝ × ℝ → ℝ) (M0 M1 L ε : ℝ) (hM0 : 0 ≤ M0) (hM1 : 0 ≤ M1) (hL : 0 ≤ L)
    (hψ0 : ∀ u v, HasDerivAt (fun u => ψ (u, v)) (ψ0 (u, v)) u) (hψ00 : ∀ u v, HasDerivAt (fun u => ψ0 (u, v)) (ψ00 (u, v)) u)
    (hψ1 : ∀ u v, HasDerivAt (fun v => ψ (u, v)) (ψ1 (u, v)) v) (hψ11 : ∀ u v, HasDerivAt (fun v => ψ1 (u, v)) (ψ11 (u, v)) v)
    (hb0 : ∀ u v, lo.1 ≤ u → u ≤ hi.1 → lo.2 ≤ v → v ≤ hi.2 → |ψ00 (u, v)| ≤ M0)
    (hb1 : ∀ u v, lo.1 ≤ u → u ≤ hi.1 → lo.2 ≤ v → v ≤ hi.2 → |ψ11 (u, v)| ≤ M1)
    (hLip : ∀ u v a b, |a| ≤ ε → |b| ≤ ε → lo.1 ≤ u + a → u + a ≤ hi.1 → lo.2 ≤ v + b → v + b ≤ hi.2 →
      |ψ (u + a, v + b) - ψ (u, v)| ≤ L * (|a| + |b|)) :
    ∃ r, createRectangularGrid n0 n1 lo hi c = .ok r ∧
      ∀ x y : List ℝ, PotentialData n0 n1 (fun i j => ψ (r.1.getD (i * n1 + j) 0, r.2.getD (i * n1 + j) 0)) x y →
      ∀ (n : Nat) (us vs d : List ℝ), 1 ≤ n → n ≤ us.length → n ≤ vs.length → n - 1 ≤ d.length →
        (∀ k m, |pert n m k| ≤ ε) →
        (∀ k < n, (lo.1 ≤ (movedNode pert n us vs k).1 ∧ (movedNode pert n us vs k).1 ≤ hi.1) ∧
          lo.2 ≤ (movedNode pert n us vs k).2 ∧ (movedNode pert n us vs k).2 ≤ hi.2) →
        (∀ k < n - 1, NotAlong n0 n1 (equallySpaced n0 lo.1 hi.1) (equallySpaced n1 lo.2 hi.2) (movedNode pert n us vs k).1
          (movedNode pert n us vs k).2 (movedNode pert n us vs (k + 1)).1 (movedNode pert n us vs (k + 1)).2) →
        (∀ k < n - 1, ∀ i < n0 - 1, ∀ j < n1 - 1,
          ClearLine (gridQuad n1 r.1 r.2 i j) (movedNode pert n us vs k) (movedNode pert n us vs (k + 1))) →
        ∃ d', flowWith pert g srt [] n0 n1 r.1 r.2 n us vs 1 x y d = .ok d' ∧
          |(d'.take (n - 1)).sum - (ψ (us.getD (n - 1) 0, vs.getD (n - 1) 0) - ψ (us.getD 0 0, vs.getD 0 0))| ≤
            (M0 * ((hi.1 - lo.1) / ((n0 : ℝ) - 1)) ^ 2 + M1 * ((hi.2 - lo.2) / ((n1 : ℝ) - 1)) ^ 2) / 4 + 4 * L * ε := by
  obtain ⟨r, hr, hl0, hl1, hT, hw, hnode⟩ := rectangular_tensor n0 n1 h0 h1 lo hi hlo c hc0 hc1
  refine ⟨r, hr, fun x y hp n us vs d hn hu hv hd hpert hin hna hclear => ?_⟩
  have exy : ∀ u v : ℝ, (0 : ℝ × ℝ) + u • ((1 : ℝ), (0 : ℝ)) + v • ((0 : ℝ), (1 : ℝ)) = (u, v) := by intro u v; ext <;> simp
  obtain ⟨x0, x1, -⟩ := C24_rectangular_corners n0 h0 lo.1 hi.1 hlo.1
  obtain ⟨y0, y1, -⟩ := C24_rectangular_corners n1 h1 lo.2 hi.2 hlo.2
  have x0 : equallySpaced n0 lo.1 hi.1 0 = lo.1 := x0
  have x1 : equallySpaced n0 lo.1 hi.1 (n0 - 1) = hi.1 := x1
  have y0 : equallySpaced n1 lo.2 hi.2 0 = lo.2 := y0
  have y1 : equallySpaced n1 lo.2 hi.2 (n1 - 1) = hi.2 := y1
  have hB : BendsOn n0 n1 (equallySpaced n0 lo.1 hi.1) (equallySpaced n1 lo.2 hi.2) 0 (1, 0) (0, 1) ψ M0 M1 := by
    constructor
    · intro v v0 v1
      simp only [exy]
      rw [x0, x1]
      rw [y0] at v0
      rw [y1] at v1
      exact bends_of_deriv (fun u => hψ0 u v) (fun u => hψ00 u v) (fun u u0 u1 => hb0 u v u0 u1 v0 v1)
    · intro u u0 u1
      simp only [exy]
      rw [y0, y1]
      rw [x0] at u0
      rw [x1] at u1
      exact bends_of_deriv (fun v => hψ1 u v) (fun v => hψ11 u v) (fun v v0 v1 => hb1 u v u0 u1 v0 v1)
  have hp' : PotentialData n0 n1 (fun i j => ψ (0 + equallySpaced n0 lo.1 hi.1 i • (1, 0) + equallySpaced n1 lo.2 hi.2 j • (0, 1))) x y := by
    refine ⟨hp.lenx, hp.leny, fun i j hi' hj' => ?_, fun i j hi' hj' => ?_⟩
    · rw [hp.xs i j hi' hj']
      beta_reduce
      rw [exy, exy, (hnode i j (by omega) hj').1, (hnode i j (by omega) hj').2, (hnode (i + 1) j (by omega) hj').1, (hnode (i + 1) j (by omega) hj').2]
    · rw [hp.ys i j hi' hj']
      beta_reduce
      rw [exy, exy, (hnode i j hi' (by omega)).1, (hnode i j hi' (by omega)).2, (hnode i (j + 1) hi' (by omega)).1, (hnode i (j + 1) hi' (by omega)).2]
  obtain ⟨d', e, hs⟩ := C119_line pert g hg srt hsrt n0 n1 h0 h1 hf r.1 r.2 hl0 hl1 n hn us vs hu hv _ _ 0 (1, 0) (0, 1) hT _ _ hw ψ M0 M1 hM0 hM1 hB
    x y hp' d hd (fun k => (movedNode pert n us vs k).1) (fun k => (movedNode pert n us vs k).2) (fun k _ => by rw [exy])
    (fun k hk => by rw [x0, x1, y0, y1]; exact hin k hk) hna hclear
  refine ⟨d', e, ?_⟩
  have moved : ∀ k < n, |ψ (movedNode pert n us vs k) - ψ (us.getD k 0, vs.getD k 0)| ≤ 2 * L * ε := by
    intro k hk
    have a := hpert k 0
    have b := hpert k 1
    obtain ⟨⟨i1, i2⟩, i3, i4⟩ := hin k hk
    have := hLip (us.getD k 0) (vs.getD k 0) (pert n 0 k) (pert n 1 k) a b i1 i2 i3 i4
    refine this.trans ?_
    nlinarith
  have m0 := abs_le.mp (moved 0 (by omega))
  have m1 := abs_le.mp (moved (n - 1) (by omega))
  rw [abs_le] at hs ⊢
  constructor <;> linarith [hs.1, hs.2, m0.1, m0.2, m1.1, m1.2]

/-! ### Cases -/

/-- The stream function of the example program `streamFlow`. -/
noncomputable def exampleStream (p : ℝ × ℝ) : ℝ := p.2 ^ 2 + Real.cos (2 * Real.pi * p.1) / (4 * Real.pi)

theorem exampleStream_derivs (u v : ℝ) :
    HasDerivAt (fun u => exampleStream (u, v)) (-Real.sin (2 * Real.pi * u) / 2) u ∧
    HasDerivAt (fun u => -Real.sin (2 * Real.pi * u) / 2) (-Real.pi * Real.cos (2 * Real.pi * u)) u ∧
    HasDerivAt (fun v => exampleStream (u, v)) (2 * v) v ∧ HasDerivAt (fun v : ℝ => 2 * v) 2 v := by
  have hpi := Real.pi_ne_zero
  have hl : HasDerivAt (fun u : ℝ => 2 * Real.pi * u) (2 * Real.pi) u := by simpa using (hasDerivAt_id u).const_mul (2 * Real.pi)
  refine ⟨?_, ?_, ?_, ?_⟩
  · have := ((hl.cos).div_const (4 * Real.pi)).const_add (v ^ 2)
    unfold exampleStream
    exact this.congr_deriv (by field_simp; ring)
  · have := ((hl.sin).neg).div_const 2
    exact this.congr_deriv (by ring)
  · have := (hasDerivAt_pow 2 v).add_const (Real.cos (2 * Real.pi * u) / (4 * Real.pi))
    unfold exampleStream
    exact this.congr_deriv (by norm_num)
  · simpa using (hasDerivAt_id v).const_mul (2 : ℝ)

theorem exampleStream_bends : BendsOn 3 3 (fun i => (i : ℝ)) (fun j => (j : ℝ)) (0, 0) (1, 0) (0, 1) exampleStream Real.pi 2 := by
  have exy : ∀ u v : ℝ, ((0 : ℝ), (0 : ℝ)) + u • ((1 : ℝ), (0 : ℝ)) + v • ((0 : ℝ), (1 : ℝ)) = (u, v) := by intro u v; ext <;> simp
  constructor
  · intro v _ _
    simp only [exy]
    refine bends_of_deriv (fun u => (exampleStream_derivs u v).1) (fun u => (exampleStream_derivs u v).2.1) fun u _ _ => ?_
    rw [abs_mul, abs_neg, abs_of_pos Real.pi_pos]
    exact mul_le_of_le_one_right Real.pi_pos.le (Real.abs_cos_le_one _)
  · intro u _ _
    simp only [exy]
    exact bends_of_deriv (fun v => (exampleStream_derivs u v).2.2.1) (fun v => (exampleStream_derivs u v).2.2.2) fun v _ _ => by norm_num

/-- The differences of the stream function of the example between the nodes of the grid of 3 times 3 integer nodes. -/
theorem exampleStream_data (phi : Nat → Nat → ℝ) (hphi : ∀ i j, i < 3 → j < 3 → phi i j = exampleStream (i, j)) :
    PotentialData 3 3 phi [0, 0, 0, 0, 0, 0] [1, 3, 1, 3, 1, 3] := by
  have hc : ∀ i : Nat, Real.cos (2 * Real.pi * i) = 1 := by
    intro i
    rw [mul_comm]
    exact Real.cos_nat_mul_two_pi i
  have he : ∀ i j : Nat, exampleStream (i, j) = (j : ℝ) ^ 2 + 1 / (4 * Real.pi) := by
    intro i j
    unfold exampleStream
    rw [hc i]
  refine ⟨by simp, by simp, fun i j hi hj => ?_, fun i j hi hj => ?_⟩
  · have hi : i < 2 := hi
    rw [hphi _ _ (by omega) hj, hphi _ _ (by omega) hj, he, he, sub_self]
    interval_cases i <;> interval_cases j <;> simp [xEdge]
  · have hj : j < 2 := hj
    rw [hphi _ _ hi (by omega), hphi _ _ hi (by omega), he, he]
    interval_cases i <;> interval_cases j <;> simp [yEdge] <;> norm_num

theorem square_clear (i j : Nat) (hi : i < 2) (hj : j < 2) : ZConvex (zcell i j) ∧ ZSmall (zcell i j) := by
  interval_cases i <;> interval_cases j <;> exact ⟨by decide, by decide⟩

/-- A segment that leaves the grid: from (1, 0) to (3, 1) on the grid [0, 2] × [0, 2] of 2 times 2 cells, for the stream function of the
example program.  The flow is that of its first half. -/
example (g : Gels ℝ) (hg : GelsContract g) (srt : List ℝ → List ℝ) (hsrt : ∀ l, SortsTo l (srt l)) :
    ∃ d' w, flowWith noPert g srt [] 3 3 [0, 0, 0, 1, 1, 1, 2, 2, 2] [0, 1, 2, 0, 1, 2, 0, 1, 2] 2 [1, 3] [0, 1] 1
      [0, 0, 0, 0, 0, 0] [1, 3, 1, 3, 1, 3] [7] = .ok d' ∧ d'[0]? = some w ∧
      |w - (exampleStream (2, 1 / 2) - exampleStream (1, 0))| ≤ (Real.pi + 2) / 4 := by
  have hm : ∀ k, movedNode noPert 2 ([1, 3] : List ℝ) [0, 1] k = (([1, 3] : List ℝ).getD k 0, ([0, 1] : List ℝ).getD k 0) := by
    intro k; simp [movedNode, noPert]
  have hq : ∀ i < 2, ∀ j < 2, gridQuad 3 ([0, 0, 0, 1, 1, 1, 2, 2, 2] : List ℝ) [0, 1, 2, 0, 1, 2, 0, 1, 2] i j = zquad (zcell i j) := by
    intro i hi j hj
    funext c
    interval_cases i <;> interval_cases j <;> fin_cases c <;> simp [gridQuad, nodePlace, cellNode, zquad, zcell]
  obtain ⟨d', e, h⟩ := C119_segment noPert g hg srt hsrt 3 3 (by norm_num) (by norm_num) (by norm_num) _ _ (by simp) (by simp) 2 (by norm_num)
    [1, 3] [0, 1] (by simp) (by simp) _ _ _ _ _ square_tensor 1 1 ⟨fun i _ => by push_cast; linarith, fun i _ => by push_cast; linarith⟩
    exampleStream Real.pi 2 Real.pi_pos.le (by norm_num) exampleStream_bends _ _
    (exampleStream_data _ fun i j _ _ => by congr 1; ext <;> simp) [7] (by simp)
    (fun k => ([1, 3] : List ℝ).getD k 0) (fun k => ([0, 1] : List ℝ).getD k 0) (fun k _ => by rw [hm]; ext <;> simp)
  obtain ⟨w, h1, h2⟩ := h 0 (by norm_num) _ _ rfl rfl 0 (1 / 2) le_rfl (by norm_num) (by norm_num)
    (by
      intro p p0 p1
      norm_num
      constructor
      · rintro ⟨⟨-, h⟩, -⟩; constructor <;> linarith
      · rintro ⟨-, h⟩; refine ⟨⟨?_, ?_⟩, ?_, ?_⟩ <;> linarith)
    (by
      constructor
      · intro i h0 h1
        norm_num
        intro h
        linarith
      · rintro i h0 h1 ⟨h, -⟩
        have h : (0 : ℝ) = i := h
        have : i = 0 := by exact_mod_cast h.symm
        omega)
    (by
      intro i hi j hj
      have hc := square_clear i j hi hj
      have := clearLine_int hc.1 hc.2 (1, 0) (3, 1) (by norm_num) (by norm_num) (Or.inr (by decide))
      rw [hq i hi j hj, hm, hm]
      simpa using this)
  refine ⟨d', w, e, h1, ?_⟩
  rw [hm, hm] at h2
  norm_num at h2 ⊢
  exact h2

theorem equallySpaced_int (i : Nat) : equallySpaced 3 0 2 i = i := by
  unfold equallySpaced; norm_num

/-- The line (0, 0), (2, 1), (1, 2) on the grid of 2 times 2 cells made by `createRectangularGrid` over [0, 2] × [0, 2], for the stream
function of the example program: all the hypotheses of `C119_rectangular` hold. -/
example (g : Gels ℝ) (hg : GelsContract g) (srt : List ℝ → List ℝ) (hsrt : ∀ l, SortsTo l (srt l)) :
    ∃ r d', createRectangularGrid 3 3 (0, 0) (2, 2) ((List.replicate 9 0, List.replicate 9 0) : List ℝ × List ℝ) = .ok r ∧
      flowWith noPert g srt [] 3 3 r.1 r.2 3 [0, 2, 1] [0, 1, 2] 1 [0, 0, 0, 0, 0, 0] [1, 3, 1, 3, 1, 3] [7, 7] = .ok d' ∧
      |(d'.take 2).sum - (exampleStream (1, 2) - exampleStream (0, 0))| ≤ (Real.pi + 2) / 4 := by
  have hm : ∀ k, movedNode noPert 3 ([0, 2, 1] : List ℝ) [0, 1, 2] k = (([0, 2, 1] : List ℝ).getD k 0, ([0, 1, 2] : List ℝ).getD k 0) := by
    intro k; simp [movedNode, noPert]
  obtain ⟨r, hr, h⟩ := C119_rectangular noPert g hg srt hsrt 3 3 (by norm_num) (by norm_num) (by norm_num) (0, 0) (2, 2) ⟨by norm_num, by norm_num⟩
    (List.replicate 9 0, List.replicate 9 0) (by simp) (by simp) exampleStream (fun p => -Real.sin (2 * Real.pi * p.1) / 2) (fun p => 2 * p.2)
    (fun p => -Real.pi * Real.cos (2 * Real.pi * p.1)) (fun _ => 2) Real.pi 2 0 0 Real.pi_pos.le (by norm_num) le_rfl
    (fun u v => (exampleStream_derivs u v).1) (fun u v => (exampleStream_derivs u v).2.1)
    (fun u v => (exampleStream_derivs u v).2.2.1) (fun u v => (exampleStream_derivs u v).2.2.2)
    (fun u v _ _ _ _ => by
      rw [abs_mul, abs_neg, abs_of_pos Real.pi_pos]
      exact mul_le_of_le_one_right Real.pi_pos.le (Real.abs_cos_le_one _))
    (fun u v _ _ _ _ => by norm_num)
    (fun u v a b ha hb _ _ _ _ => by
      rw [abs_nonpos_iff.mp ha, abs_nonpos_iff.mp hb]
      simp)
  obtain ⟨r', hr', -, -, -, -, hnode⟩ := rectangular_tensor 3 3 (by norm_num) (by norm_num) ((0, 0) : ℝ × ℝ) (2, 2) ⟨by norm_num, by norm_num⟩
    (List.replicate 9 0, List.replicate 9 0) (by simp) (by simp)
  rw [hr] at hr'
  cases hr'
  simp only [equallySpaced_int] at hnode
  obtain ⟨d', e, hs⟩ := h _ _ (exampleStream_data _ fun i j hi hj => by rw [(hnode i j hi hj).1, (hnode i j hi hj).2]) 3 [0, 2, 1] [0, 1, 2] [7, 7]
    (by norm_num) (by simp) (by simp) (by simp) (fun k m => by simp [noPert])
    (by intro k hk; rw [hm]; interval_cases k <;> norm_num)
    (by
      intro k hk
      have hk : k < 2 := hk
      rw [hm, hm]
      simp only [NotAlong, equallySpaced_int]
      constructor
      · intro i h0 h1
        obtain rfl : i = 1 := by omega
        interval_cases k <;> norm_num
      · intro i h0 h1
        obtain rfl : i = 1 := by omega
        interval_cases k <;> norm_num)
    (by
      intro k hk i hi j hj
      have hk : k < 2 := hk
      have hq : gridQuad 3 r.1 r.2 i j = zquad (zcell i j) := by
        have hi : i < 2 := hi
        have hj : j < 2 := hj
        funext c
        have hc : (cellNode i j c).1 < 3 ∧ (cellNode i j c).2 < 3 := by
          fin_cases c <;> simp [cellNode] <;> omega
        obtain ⟨v1, v2⟩ := hnode _ _ hc.1 hc.2
        simp only [gridQuad, nodePlace, zquad, zcell]
        rw [v1, v2]
        simp
      have hc := square_clear i j hi hj
      have := fun a b => clearLine_int hc.1 hc.2 a b
      rw [hq, hm, hm]
      interval_cases k
      · simpa using this (0, 0) (2, 1) (by norm_num) (by norm_num) (Or.inr (by decide))
      · simpa using this (2, 1) (1, 2) (by norm_num) (by norm_num) (Or.inr (by decide)))
  refine ⟨r, d', hr, e, hs.trans ?_⟩
  norm_num

/-- **C119 is false for the ends of a line that leaves the grid**: for the stream function x, whose flow from (1, 0) to (3, 1) is 2, the
part of the line outside the grid [0, 2] × [0, 2] is left out and the flow is 1. -/
theorem C119_outside_refuted :
    flowWith noPert Sg.Witness.cramerGels sortReal [] 3 3 [0, 0, 0, 1, 1, 1, 2, 2, 2] [0, 1, 2, 0, 1, 2, 0, 1, 2] 2 [1, 3] [0, 1] 1
      [1, 1, 1, 1, 1, 1] [0, 0, 0, 0, 0, 0] [7] = .ok [(1 : ℚ)] := by decide +kernel

end Sg.Props
