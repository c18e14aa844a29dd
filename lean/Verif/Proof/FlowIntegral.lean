import Verif.Spec.Whitney
import Verif.Proof.FlowExact
import Mathlib.Analysis.SpecialFunctions.Integrals.Basic
/-
The weights of a segment are integrals of the edge fields along it.
-/
namespace Sg.FlowInterp
open Sg.LinearSolve Sg.Triangulate Sg.QuadIntersect Sg.FindPoint Sg.QuadLine Sg.QuadFlows Sg.Spec Sg.Props Sg.Plane MeasureTheory

/-- The position in the cell. -/
noncomputable def coordX (q : Quad ℝ) (p : P2) (k : Fin 2) : ℝ :=
  if k = 0 then (cellVector q (p - q 0)).1 else (cellVector q (p - q 0)).2

theorem coordX_at {q : Quad ℝ} (hq : Parallelogram q) (x : Fin 2 → ℝ) : coordX q (at_ q x) = x := by
  have hd : (q 1 - q 0).1 * (q 3 - q 0).2 - (q 1 - q 0).2 * (q 3 - q 0).1 ≠ 0 := by
    have := hq.area
    simp only [Prod.fst_sub, Prod.snd_sub]
    intro h; apply this; linear_combination h
  funext k
  rw [at_affine hq]
  unfold coordX cellVector
  dsimp only
  have hk : k = 0 ∨ k = 1 := by omega
  rcases hk with rfl | rfl
  · rw [if_pos rfl, div_eq_iff hd]
    simp
    ring
  · rw [if_neg (by decide), div_eq_iff hd]
    simp
    ring

theorem coordX_line (q : Quad ℝ) (a b : P2) (t : ℝ) (k : Fin 2) :
    coordX q (a + t • (b - a)) k = coordX q a k + t * (if k = 0 then (cellVector q (b - a)).1 else (cellVector q (b - a)).2) := by
  unfold coordX cellVector
  dsimp only
  split_ifs <;> (simp only [Prod.fst_sub, Prod.snd_sub, Prod.fst_add, Prod.snd_add, Prod.smul_fst, Prod.smul_snd, smul_eq_mul]; ring)

/-- The field along the segment is linear in the parameter: its two coefficients. -/
noncomputable def coef0 (q : Quad ℝ) (E : Fin 4 → ℝ) (a b : P2) : ℝ :=
  ((1 - coordX q a 1) * E 0 + coordX q a 1 * E 1) * (cellVector q (b - a)).1 +
    ((1 - coordX q a 0) * E 2 + coordX q a 0 * E 3) * (cellVector q (b - a)).2
noncomputable def coef1 (q : Quad ℝ) (E : Fin 4 → ℝ) (a b : P2) : ℝ :=
  (E 1 - E 0) * (cellVector q (b - a)).2 * (cellVector q (b - a)).1 + (E 3 - E 2) * (cellVector q (b - a)).1 * (cellVector q (b - a)).2

theorem edgeField_line (q : Quad ℝ) (E : Fin 4 → ℝ) (a b : P2) (t : ℝ) :
    edgeField q E (a + t • (b - a)) (b - a) = coef0 q E a b + coef1 q E a b * t := by
  have h0 := coordX_line q a b t 0
  have h1 := coordX_line q a b t 1
  rw [if_pos rfl] at h0
  rw [if_neg (by decide)] at h1
  have e0 : (cellVector q (a + t • (b - a) - q 0)).1 = coordX q (a + t • (b - a)) 0 := by unfold coordX; rw [if_pos rfl]
  have e1 : (cellVector q (a + t • (b - a) - q 0)).2 = coordX q (a + t • (b - a)) 1 := by unfold coordX; rw [if_neg (by decide)]
  unfold edgeField
  dsimp only
  rw [e0, e1, h0, h1]
  unfold coef0 coef1
  ring

theorem projOf_line (q : Quad ℝ) (E : Fin 4 → ℝ) (a b : P2) (s t : ℝ) :
    flowDot (projOf (coordX q (a + s • (b - a))) (coordX q (a + t • (b - a)))) E =
      (coef0 q E a b * t + coef1 q E a b * t ^ 2 / 2) - (coef0 q E a b * s + coef1 q E a b * s ^ 2 / 2) := by
  simp only [flowDot, projOf, coordX_line, if_true, if_neg (show ¬ (1 : Fin 2) = 0 by decide), coef0, coef1]
  have : (1 : ℝ) / (1 + 1) = 1 / 2 := by norm_num
  rw [this]
  ring

theorem integral_Icc_linear {lo hi : ℝ} (h : lo ≤ hi) (c m : ℝ) :
    ∫ t in Set.Icc lo hi, (c + m * t) = (c * hi + m * hi ^ 2 / 2) - (c * lo + m * lo ^ 2 / 2) := by
  rw [integral_Icc_eq_integral_Ioc, ← intervalIntegral.integral_of_le h, intervalIntegral.integral_add, intervalIntegral.integral_const,
    intervalIntegral.integral_const_mul, integral_id]
  · simp only [smul_eq_mul]; ring
  · exact intervalIntegrable_const
  · exact (continuous_const.mul continuous_id).intervalIntegrable _ _

theorem pieceSum_line (q : Quad ℝ) (E : Fin 4 → ℝ) (a b : P2) (X : Pt ℝ → Fin 2 → ℝ) (L : List ℝ)
    (hX : ∀ t ∈ L, X (linePoint a b t) = coordX q (a + t • (b - a))) (n : Nat) (hn : n < L.length) :
    flowDot (pieceSum X (L.map (linePoint a b)) n) E =
      (coef0 q E a b * L.getD n 0 + coef1 q E a b * L.getD n 0 ^ 2 / 2) - (coef0 q E a b * L.getD 0 0 + coef1 q E a b * L.getD 0 0 ^ 2 / 2) := by
  have hg : ∀ i, i < L.length → X ((L.map (linePoint a b)).getD i (0, 0)) = coordX q (a + (L.getD i 0) • (b - a)) := by
    intro i hi
    have e1 : (L.map (linePoint a b)).getD i (0, 0) = linePoint a b (L.getD i 0) := by
      simp [List.getD_eq_getElem?_getD, List.getElem?_eq_getElem hi]
    rw [e1, hX]
    simp [List.getD_eq_getElem?_getD, List.getElem?_eq_getElem hi]
  induction n with
  | zero => simp [pieceSum, flowDot]
  | succ n ih =>
    have h := projOf_line q E a b (L.getD n 0) (L.getD (n + 1) 0)
    rw [← hg n (by omega), ← hg (n + 1) hn] at h
    have ih := ih (by omega)
    have e : ∀ e, pieceSum X (L.map (linePoint a b)) (n + 1) e = pieceSum X (L.map (linePoint a b)) n e +
        projOf (X ((L.map (linePoint a b)).getD n (0, 0))) (X ((L.map (linePoint a b)).getD (n + 1) (0, 0))) e := by
      intro e; unfold pieceSum; rw [Finset.sum_range_succ]
    unfold flowDot at h ih ⊢
    simp only [e]
    linear_combination h + ih

/-- What a cell adds to the flow. -/
theorem cell_integral {q : Quad ℝ} {g : Gels ℝ} (hg : GelsContract g) {srt : List ℝ → List ℝ} (hsrt : ∀ l, SortsTo l (srt l))
    (hq : Parallelogram q) {a b : P2} (hc : ClearLine q a b) {k : Nat} {l : List (Nat × (Fin 4 → ℝ))}
    (hl : CellSpec g srt q a b k l) (E : Fin 4 → ℝ) : (l.map fun c => flowDot c.2 E).sum = fieldIntegral q E a b := by
  have hcv := convexQuad_of hq
  set L := srt (collectedL g q a b) with hL
  have hs : L.Pairwise (· ≤ ·) := sortsTo_le (hsrt _)
  have hp : L.Perm (collectedL g q a b) := (hsrt _).1
  have hin := sorted_inside hg hcv hc hp hs
  have hmem : ∀ t ∈ L, t ∈ insideParams q a b := fun t ht => collectedL_inside hg hcv hc t (hp.mem_iff.mp ht)
  have hfi : fieldIntegral q E a b = ∫ t in insideParams q a b, (coef0 q E a b + coef1 q E a b * t) := by
    unfold fieldIntegral
    congr 1
    funext t
    exact edgeField_line q E a b t
  rw [hfi]
  rcases List.eq_nil_or_concat L with hnil | ⟨L0, hi, hcat⟩
  · have he : insideParams q a b = ∅ := by rw [hin, hnil]; ext t; simp
    rw [he]
    rcases hl with ⟨-, h2, -⟩ | ⟨-, rfl⟩
    · rw [← hL, hnil] at h2; simp at h2
    · simp
  have hne : L ≠ [] := by rw [hcat]; simp
  obtain ⟨lo, L1, hcons⟩ := List.exists_cons_of_ne_nil hne
  have hlo : L.head? = some lo := by rw [hcons]; rfl
  have hhi : L.getLast? = some hi := by rw [hcat]; simp
  obtain ⟨mlo, mhi, hb⟩ := sorted_ends hs hlo hhi
  have hicc : insideParams q a b = Set.Icc lo hi := by
    rw [hin]; ext t
    simp only [hlo, hhi, Option.some.injEq, Set.mem_setOf_eq, Set.mem_Icc]
    constructor
    · rintro ⟨_, _, rfl, rfl, h⟩; exact h
    · intro h; exact ⟨_, _, rfl, rfl, h⟩
  have hle : lo ≤ hi := (hb lo mlo).2
  rw [hicc, integral_Icc_linear hle]
  rcases hl with ⟨-, h2, s0, h0, rfl⟩ | ⟨h, rfl⟩
  · rw [← hL] at h2 ⊢
    simp only [List.map_cons, List.map_nil, List.sum_cons, List.sum_nil, add_zero]
    rw [pieceSum_line q E a b _ L ?_ (L.length - 1) (by omega)]
    · have e0 : L.getD 0 0 = lo := by rw [hcons]; rfl
      have e1 : L.getD (L.length - 1) 0 = hi := by
        rw [hcat]
        simp [List.getD_eq_getElem?_getD]
      rw [e0, e1]
    · intro t ht
      obtain ⟨x, hx, ex⟩ := region_at hq (hmem t ht).2.2
      rw [linePoint_eq, ex, foundX_at hg hq h0 hx, coordX_at hq]
  · have : lo = hi := by
      by_contra hlt
      have ilo : lo ∈ insideParams q a b := hmem lo mlo
      have hov : overlapL q a b = true := overlapL_of_mem (mem_segment_iff.mpr ⟨lo, ilo.1, ilo.2.1, rfl⟩) ilo.2.2
      have h2 : ¬ 2 ≤ L.length := fun h2 => h ⟨hov, h2⟩
      have : L.length = 1 := by have := List.length_pos_of_ne_nil hne; omega
      obtain ⟨z, hz⟩ := List.length_eq_one_iff.mp this
      rw [hz] at hlo hhi
      simp only [List.head?_cons, Option.some.injEq, List.getLast?_singleton] at hlo hhi
      exact hlt (hlo.symm.trans hhi)
    simp [this]

/-- A cell with more than a point of the segment is stored, clear or not. -/
theorem cell_stored {q : Quad ℝ} {g : Gels ℝ} (hg : GelsContract g) {srt : List ℝ → List ℝ} (hsrt : ∀ l, SortsTo l (srt l))
    (hq : ConvexQuad q) {a b : P2} {k : Nat} {l : List (Nat × (Fin 4 → ℝ))}
    (hl : CellSpec g srt q a b k l) {s t : ℝ} (hs : s ∈ insideParams q a b) (ht : t ∈ insideParams q a b) (hst : s ≠ t) : l ≠ [] := by
  set L := srt (collectedL g q a b) with hL
  have hsort : L.Pairwise (· ≤ ·) := sortsTo_le (hsrt _)
  have hp : ∀ t ∈ collectedL g q a b, t ∈ L := fun t ht => (hsrt _).1.mem_iff.mpr ht
  obtain ⟨lo, hi, h1, h2, h3, h4⟩ := sorted_covers hg hq hp hsort hs
  obtain ⟨lo', hi', h1', h2', h3', h4'⟩ := sorted_covers hg hq hp hsort ht
  rw [h1] at h1'
  rw [h2] at h2'
  cases h1'
  cases h2'
  have hlt : lo < hi := by
    rcases lt_or_gt_of_ne hst with h | h <;> linarith
  have hlen : 2 ≤ L.length := by
    by_contra hlen
    have hne : L ≠ [] := by intro h; rw [h] at h1; cases h1
    have : L.length = 1 := by have := List.length_pos_of_ne_nil hne; omega
    obtain ⟨z, hz⟩ := List.length_eq_one_iff.mp this
    rw [hz] at h1 h2
    simp only [List.head?_cons, Option.some.injEq, List.getLast?_singleton] at h1 h2
    linarith
  have hov : overlapL q a b = true := overlapL_of_mem (mem_segment_iff.mpr ⟨s, hs.1, hs.2.1, rfl⟩) hs.2.2
  rcases hl with ⟨-, -, s0, -, rfl⟩ | ⟨h, -⟩
  · simp
  · exact absurd ⟨hov, hlen⟩ h

/-- A cell that is stored for a clear segment has a point of the segment. -/
theorem stored_inside {q : Quad ℝ} {g : Gels ℝ} (hg : GelsContract g) {srt : List ℝ → List ℝ} (hsrt : ∀ l, SortsTo l (srt l))
    (hq : ConvexQuad q) {a b : P2} (hc : ClearLine q a b) {k : Nat} {l : List (Nat × (Fin 4 → ℝ))}
    (hl : CellSpec g srt q a b k l) (hne : l ≠ []) : (insideParams q a b).Nonempty := by
  rcases hl with ⟨-, h2, -⟩ | ⟨-, h⟩
  · obtain ⟨t, ht⟩ := List.exists_mem_of_length_pos (l := srt (collectedL g q a b)) (by omega)
    exact ⟨t, collectedL_inside hg hq hc t ((hsrt _).1.mem_iff.mp ht)⟩
  · exact absurd h hne

end Sg.FlowInterp
