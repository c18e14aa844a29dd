import Verif.Proof.TrapSearch
import Verif.Spec.Trapezoid
/-
Flows of a potential through quadrilaterals two sides of which are parallel.
-/
namespace Sg.Trap
open Sg Sg.LinearSolve Sg.Triangulate Sg.QuadIntersect Sg.FindPoint Sg.QuadLine Sg.QuadFlows Sg.Spec Sg.Props Sg.Curved Sg.FlowInterp Sg.Plane

/-- Two parallel vectors on the same side of a third. -/
theorem common (d u w : P2) (hp : Parallel u w)
    (hs : (0 ≤ d.1 * u.2 - d.2 * u.1 ∧ 0 ≤ d.1 * w.2 - d.2 * w.1) ∨ (d.1 * u.2 - d.2 * u.1 ≤ 0 ∧ d.1 * w.2 - d.2 * w.1 ≤ 0))
    (hn : d.1 * u.2 - d.2 * u.1 ≠ 0 ∨ d.1 * w.2 - d.2 * w.1 ≠ 0) :
    ∃ (e : P2) (r0 r1 : ℝ), 0 ≤ r0 ∧ 0 ≤ r1 ∧ 0 < r0 + r1 ∧ d.1 * e.2 - d.2 * e.1 ≠ 0 ∧ u = r0 • e ∧ w = r1 • e := by
  set A := d.1 * u.2 - d.2 * u.1 with hA
  set B := d.1 * w.2 - d.2 * w.1 with hB
  unfold Parallel at hp
  have hne : A + B ≠ 0 := by
    intro hz
    rcases hs with ⟨h1, h2⟩ | ⟨h1, h2⟩ <;> rcases hn with h | h <;> apply h <;> linarith
  refine ⟨u + w, A / (A + B), B / (A + B), ?_, ?_, ?_, ?_, ?_, ?_⟩
  · rcases hs with ⟨h1, h2⟩ | ⟨h1, h2⟩
    · exact div_nonneg h1 (by linarith)
    · exact div_nonneg_of_nonpos h1 (by linarith)
  · rcases hs with ⟨h1, h2⟩ | ⟨h1, h2⟩
    · exact div_nonneg h2 (by linarith)
    · exact div_nonneg_of_nonpos h2 (by linarith)
  · rw [← add_div, div_self hne]; exact one_pos
  · intro hz
    apply hne
    rw [hA, hB]
    simp only [Prod.fst_add, Prod.snd_add] at hz
    linear_combination hz
  · ext <;> simp only [Prod.smul_fst, Prod.smul_snd, Prod.fst_add, Prod.snd_add, smul_eq_mul] <;> rw [div_mul_eq_mul_div, eq_div_iff hne, hA, hB]
    · linear_combination d.1 * hp
    · linear_combination d.2 * hp
  · ext <;> simp only [Prod.smul_fst, Prod.smul_snd, Prod.fst_add, Prod.snd_add, smul_eq_mul] <;> rw [div_mul_eq_mul_div, eq_div_iff hne, hA, hB]
    · linear_combination -d.1 * hp
    · linear_combination -d.2 * hp

theorem trapezoid_form {q : Quad ℝ} (h : Trapezoid q) : ∃ k d e r0 r1, Form q k d e r0 r1 := by
  have ar0 : area2 (q 0) (q 1) (q 2) = area2 (q 0) (q (0 + 1)) (q (0 + 2)) := rfl
  have ar1 : area2 (q 1) (q 2) (q 3) = area2 (q 1) (q (1 + 1)) (q (1 + 2)) := rfl
  have ar2 : area2 (q 2) (q 3) (q 0) = area2 (q 2) (q (2 + 1)) (q (2 + 2)) := rfl
  have ar3 : area2 (q 3) (q 0) (q 1) = area2 (q 3) (q (3 + 1)) (q (3 + 2)) := rfl
  obtain ⟨hs, i, hi⟩ := h.convex
  have hs' : (0 ≤ area2 (q 0) (q 1) (q 2) ∧ 0 ≤ area2 (q 2) (q 3) (q 0)) ∨ (area2 (q 0) (q 1) (q 2) ≤ 0 ∧ area2 (q 2) (q 3) (q 0) ≤ 0) := by
    rcases hs with hs | hs
    · exact .inl ⟨hs 0, hs 2⟩
    · exact .inr ⟨hs 0, hs 2⟩
  have hi' : area2 (q 0) (q 1) (q 2) ≠ 0 ∨ area2 (q 1) (q 2) (q 3) ≠ 0 ∨ area2 (q 2) (q 3) (q 0) ≠ 0 ∨ area2 (q 3) (q 0) (q 1) ≠ 0 := by
    fin_cases i
    · exact .inl hi
    · exact .inr (.inl hi)
    · exact .inr (.inr (.inl hi))
    · exact .inr (.inr (.inr hi))
  clear hs hi ar0 ar1 ar2 ar3
  rcases h.parallel with hp | hp
  · have hp' : ((q 3).1 - (q 0).1) * ((q 2).2 - (q 1).2) = ((q 3).2 - (q 0).2) * ((q 2).1 - (q 1).1) := hp
    have a0 : area2 (q 0) (q 1) (q 2) = (q 1 - q 0).1 * (q 2 - q 1).2 - (q 1 - q 0).2 * (q 2 - q 1).1 := by
      simp only [area2, Prod.fst_sub, Prod.snd_sub]; ring
    have a1 : area2 (q 1) (q 2) (q 3) = (q 1 - q 0).1 * (q 2 - q 1).2 - (q 1 - q 0).2 * (q 2 - q 1).1 := by
      simp only [area2, Prod.fst_sub, Prod.snd_sub]; linear_combination -hp'
    have a2 : area2 (q 2) (q 3) (q 0) = (q 1 - q 0).1 * (q 3 - q 0).2 - (q 1 - q 0).2 * (q 3 - q 0).1 := by
      simp only [area2, Prod.fst_sub, Prod.snd_sub]; linear_combination -hp'
    have a3 : area2 (q 3) (q 0) (q 1) = (q 1 - q 0).1 * (q 3 - q 0).2 - (q 1 - q 0).2 * (q 3 - q 0).1 := by
      simp only [area2, Prod.fst_sub, Prod.snd_sub]; ring
    rw [a0, a2] at hs'
    rw [a0, a1, a2, a3] at hi'
    obtain ⟨e, r0, r1, n0, n1, np, hd, eu, ew⟩ := common (q 1 - q 0) (q 3 - q 0) (q 2 - q 1) hp
      (by tauto) (by tauto)
    refine ⟨0, q 1 - q 0, e, r0, r1, ?_, n0, n1, np, hd⟩
    intro x
    have eu1 := congrArg Prod.fst eu
    have eu2 := congrArg Prod.snd eu
    have ew1 := congrArg Prod.fst ew
    have ew2 := congrArg Prod.snd ew
    simp only [Prod.fst_sub, Prod.snd_sub, Prod.smul_fst, Prod.smul_snd, smul_eq_mul] at eu1 eu2 ew1 ew2
    ext
    · simp only [at_, bilin, Prod.fst_add, Prod.smul_fst, Prod.fst_sub, smul_eq_mul, zero_add]
      linear_combination (1 - x 0) * x 1 * eu1 + x 0 * x 1 * ew1
    · simp only [at_, bilin, Prod.snd_add, Prod.smul_snd, Prod.snd_sub, smul_eq_mul, zero_add]
      linear_combination (1 - x 0) * x 1 * eu2 + x 0 * x 1 * ew2
  · have hp' : ((q 1).1 - (q 0).1) * ((q 2).2 - (q 3).2) = ((q 1).2 - (q 0).2) * ((q 2).1 - (q 3).1) := hp
    have a0 : area2 (q 0) (q 1) (q 2) = -((q 3 - q 0).1 * (q 1 - q 0).2 - (q 3 - q 0).2 * (q 1 - q 0).1) := by
      simp only [area2, Prod.fst_sub, Prod.snd_sub]; linear_combination hp'
    have a1 : area2 (q 1) (q 2) (q 3) = -((q 3 - q 0).1 * (q 2 - q 3).2 - (q 3 - q 0).2 * (q 2 - q 3).1) := by
      simp only [area2, Prod.fst_sub, Prod.snd_sub]; linear_combination hp'
    have a2 : area2 (q 2) (q 3) (q 0) = -((q 3 - q 0).1 * (q 2 - q 3).2 - (q 3 - q 0).2 * (q 2 - q 3).1) := by
      simp only [area2, Prod.fst_sub, Prod.snd_sub]; ring
    have a3 : area2 (q 3) (q 0) (q 1) = -((q 3 - q 0).1 * (q 1 - q 0).2 - (q 3 - q 0).2 * (q 1 - q 0).1) := by
      simp only [area2, Prod.fst_sub, Prod.snd_sub]; ring
    rw [a0, a2] at hs'
    rw [a0, a1, a2, a3] at hi'
    simp only [neg_nonneg, neg_nonpos, ne_eq, neg_eq_zero] at hs' hi'
    obtain ⟨e, r0, r1, n0, n1, np, hd, eu, ew⟩ := common (q 3 - q 0) (q 1 - q 0) (q 2 - q 3) hp
      (by tauto) (by simp only [ne_eq]; tauto)
    refine ⟨1, q 3 - q 0, e, r0, r1, ?_, n0, n1, np, hd⟩
    intro x
    have eu1 := congrArg Prod.fst eu
    have eu2 := congrArg Prod.snd eu
    have ew1 := congrArg Prod.fst ew
    have ew2 := congrArg Prod.snd ew
    have e2 : (1 : Fin 2) + 1 = 0 := rfl
    simp only [Prod.fst_sub, Prod.snd_sub, Prod.smul_fst, Prod.smul_snd, smul_eq_mul] at eu1 eu2 ew1 ew2
    ext
    · simp only [at_, bilin, Prod.fst_add, Prod.smul_fst, Prod.fst_sub, smul_eq_mul, e2]
      linear_combination (1 - x 1) * x 0 * eu1 + x 0 * x 1 * ew1
    · simp only [at_, bilin, Prod.snd_add, Prod.smul_snd, Prod.snd_sub, smul_eq_mul, e2]
      linear_combination (1 - x 1) * x 0 * eu2 + x 0 * x 1 * ew2

section
variable {q : Quad ℝ}

/-- Every point of the quadrilateral has an index position. -/
theorem Form.region_at {k : Fin 2} {d e : P2} {r0 r1 : ℝ} (h : Form q k d e r0 r1) {p : P2} (hp : p ∈ quadRegion q) :
    ∃ x, InCell x ∧ p = at_ q x := by
  have hc : Convex ℝ {p : P2 | ∃ a s : ℝ, 0 ≤ a ∧ a ≤ 1 ∧ 0 ≤ s ∧ s ≤ r0 + a * (r1 - r0) ∧ p = q 0 + a • d + s • e} := by
    rintro _ ⟨a, s, h1, h2, h3, h4, rfl⟩ _ ⟨a', s', h1', h2', h3', h4', rfl⟩ u v hu hv huv
    refine ⟨u * a + v * a', u * s + v * s', by positivity, by nlinarith, by positivity, ?_, ?_⟩
    · obtain rfl : u = 1 - v := by linarith
      nlinarith
    · obtain rfl : u = 1 - v := by linarith
      ext <;> simp <;> ring
  have hr : ∀ a : ℝ, 0 ≤ a → a ≤ 1 → 0 ≤ r0 + a * (r1 - r0) := fun a => h.length_nonneg
  have hmem := convexHull_min (𝕜 := ℝ) (s := Set.range q) ?_ hc hp
  · obtain ⟨a, s, h1, h2, h3, h4, rfl⟩ := hmem
    set r := r0 + a * (r1 - r0) with hrd
    rcases (hr a h1 h2).eq_or_lt with hz | hpos
    · have hs : s = 0 := le_antisymm (by rw [hz]; exact h4) h3
      refine ⟨fun j => if j = k then a else 0, fun j => ?_, ?_⟩
      · dsimp only
        split_ifs
        · exact ⟨h1, h2⟩
        · exact ⟨le_rfl, zero_le_one⟩
      · rw [h.place, if_pos rfl, if_neg (succ_ne k), hs]
        simp
    · refine ⟨fun j => if j = k then a else s / r, fun j => ?_, ?_⟩
      · dsimp only
        split_ifs
        · exact ⟨h1, h2⟩
        · exact ⟨by positivity, by rw [div_le_one hpos]; exact h4⟩
      · rw [h.place, if_pos rfl, if_neg (succ_ne k), ← hrd, div_mul_cancel₀ _ hpos.ne']
  · rintro _ ⟨i, rfl⟩
    obtain ⟨x, hx, ex⟩ : ∃ x, InCell x ∧ q i = at_ q x := by
      refine ⟨fun k => match i, k with | 0, _ => 0 | 1, 0 => 1 | 1, 1 => 0 | 2, _ => 1 | 3, 0 => 0 | 3, 1 => 1, ?_, ?_⟩
      · intro k; fin_cases i <;> fin_cases k <;> simp
      · fin_cases i <;> ext <;> simp [at_, bilin]
    have hn := hr (x k) (hx k).1 (hx k).2
    refine ⟨x k, x (k + 1) * (r0 + x k * (r1 - r0)), (hx k).1, (hx k).2, mul_nonneg (hx _).1 hn,
      mul_le_of_le_one_left hn (hx _).2, ?_⟩
    rw [ex, h.place]

/-- Every point of the quadrilateral has an index position, and the search finds one for it. -/
structure Locates (q : Quad ℝ) : Prop where
  convex : ConvexQuad q
  region : ∀ p ∈ quadRegion q, ∃ x, InCell x ∧ p = at_ q x
  search : ∀ (g : Gels ℝ), GelsContract g → ∀ f : Finder ℝ 2, HasQuad q f → ∀ t, InCell t → ∃ x f', findIndices g f (at_ q t) = .ok (1, x, f')

theorem trapezoid_locates (h : Trapezoid q) : Locates q := by
  obtain ⟨k, d, e, r0, r1, hf⟩ := trapezoid_form h
  refine ⟨h.convex, fun p hp => hf.region_at hp, fun g hg f hq t ht => ?_⟩
  obtain ⟨x, f', e, -⟩ := hf.search hg hq ht
  exact ⟨x, f', e⟩

/-- The search in the class finds a position whose place is as near as the tolerance says. -/
theorem Locates.found (h : Locates q) {g : Gels ℝ} (hg : GelsContract g) {s0 : Flows ℝ}
    (h0 : FlowsReached g s0) {p : P2} (hp : p ∈ quadRegion q) :
    InCell (foundX g (s0.setQuadPoints q).finder p) ∧
      apart (at_ q (foundX g (s0.setQuadPoints q).finder p)) p < 1 / 10 ^ 10 := by
  obtain ⟨t, ht, rfl⟩ := h.region p hp
  have hq : HasQuad q (s0.setQuadPoints q).finder := hasQuad_set (flowsReached_finder g h0)
  obtain ⟨x, f', e1⟩ := h.search g hg _ hq t ht
  obtain ⟨c, x', f'', e2, -, -, hin, hnear⟩ := findIndices_ok g hg.sizes hq (at_ q t)
  rw [e1] at e2
  simp only [Except.ok.injEq, Prod.mk.injEq] at e2
  obtain ⟨rfl, rfl, -⟩ := e2
  have hfx : foundX g (s0.setQuadPoints q).finder (at_ q t) = x := by unfold foundX; rw [e1]
  rw [hfx]
  refine ⟨inGrid_inCell hin, ?_⟩
  have := hnear rfl
  have e3 : (flowTol : ℝ) = 1 / 10 ^ 10 := by unfold flowTol; norm_num
  rw [e3] at this
  exact this

/-- What a cell adds to the flow of a potential, if the potential at the indices found is near `f`. -/
theorem cell_near {g : Gels ℝ} (hg : GelsContract g) {srt : List ℝ → List ℝ} (hsrt : ∀ l, SortsTo l (srt l))
    (hcv : ConvexQuad q) {a b : P2} (hc : ClearLine q a b) {k : Nat} {l : List (Nat × (Fin 4 → ℝ))}
    (hl : CellSpec g srt q a b k l) (v : Fin 4 → ℝ) (f : ℝ → ℝ) (δ : ℝ)
    (hf : ∀ s0, FlowsReached g s0 → ∀ t ∈ insideParams q a b,
      |bilin v (foundX g (s0.setQuadPoints q).finder (a + t • (b - a))) - f t| ≤ δ) :
    (insideParams q a b = ∅ ∧ l = []) ∨
    ∃ lo hi, lo ≤ hi ∧ 0 ≤ lo ∧ hi ≤ 1 ∧ insideParams q a b = Set.Icc lo hi ∧ (lo < hi → l ≠ []) ∧
      |(l.map fun c => flowDot c.2 (edgeDiff v)).sum - (f hi - f lo)| ≤ 2 * δ := by
  set L := srt (collectedL g q a b) with hL
  have hs : L.Pairwise (· ≤ ·) := sortsTo_le (hsrt _)
  have hp : L.Perm (collectedL g q a b) := (hsrt _).1
  have hin := sorted_inside hg hcv hc hp hs
  rcases List.eq_nil_or_concat L with hnil | ⟨L0, hi, hcat⟩
  · left
    refine ⟨?_, ?_⟩
    · rw [hin, hnil]; ext t; simp
    · rcases hl with ⟨-, h2, -⟩ | ⟨-, h⟩
      · rw [← hL, hnil] at h2; simp at h2
      · exact h
  right
  have hne : L ≠ [] := by rw [hcat]; simp
  obtain ⟨lo, L1, hcons⟩ := List.exists_cons_of_ne_nil hne
  have hlo : L.head? = some lo := by rw [hcons]; rfl
  have hhi : L.getLast? = some hi := by rw [hcat]; simp
  obtain ⟨mlo, mhi, hb⟩ := sorted_ends hs hlo hhi
  have hicc : insideParams q a b = Set.Icc lo hi := by
    rw [hin]; ext t
    simp only [hlo, hhi, Option.some.injEq, Set.mem_setOf_eq, Set.mem_Icc]
    constructor
    · rintro ⟨_, _, rfl, rfl, h⟩; exact h
    · intro h; exact ⟨_, _, rfl, rfl, h⟩
  have hle : lo ≤ hi := (hb lo mlo).2
  have ilo : lo ∈ insideParams q a b := by rw [hicc]; exact ⟨le_rfl, hle⟩
  have ihi : hi ∈ insideParams q a b := by rw [hicc]; exact ⟨hle, le_rfl⟩
  have hδ : 0 ≤ δ := (abs_nonneg _).trans (hf Flows.new ⟨[], rfl⟩ lo ilo)
  have hov : overlapL q a b = true := overlapL_of_mem (mem_segment_iff.mpr ⟨lo, ilo.1, ilo.2.1, rfl⟩) ilo.2.2
  have hone : ¬ 2 ≤ L.length → lo = hi := by
    intro h2
    have : L.length = 1 := by have := List.length_pos_of_ne_nil hne; omega
    obtain ⟨z, hz⟩ := List.length_eq_one_iff.mp this
    rw [hz] at hlo hhi
    simp at hlo hhi
    exact hlo.symm.trans hhi
  refine ⟨lo, hi, hle, ilo.1, ihi.2.1, hicc, ?_, ?_⟩
  · intro hlt
    rcases hl with ⟨-, -, s0, -, rfl⟩ | ⟨h, -⟩
    · simp
    · exact absurd ⟨hov, by by_contra h2; exact hlt.ne (hone h2)⟩ h
  · rcases hl with ⟨-, h2, s0, h0, rfl⟩ | ⟨h, rfl⟩
    · rw [← hL]
      rw [← hL] at h2
      simp only [List.map_cons, List.map_nil, List.sum_cons, List.sum_nil, add_zero]
      rw [pieceSum_potential]
      have hg0 : (L.map (linePoint a b)).getD 0 (0, 0) = a + lo • (b - a) := by
        rw [hcons, List.map_cons, List.getD_cons_zero, linePoint_eq]
      have hg1 : (L.map (linePoint a b)).getD (L.length - 1) (0, 0) = a + hi • (b - a) := by
        rw [hcat]
        simp only [List.map_append, List.map_cons, List.map_nil, List.concat_eq_append, List.length_append, List.length_singleton,
          Nat.add_sub_cancel]
        rw [List.getD_eq_getElem?_getD, List.getElem?_append_right (by simp)]
        simp only [List.length_map, Nat.sub_self, List.getElem?_cons_zero, Option.getD_some]
        rw [linePoint_eq]
      rw [hg0, hg1]
      have b1 := abs_le.mp (hf s0 h0 lo ilo)
      have b2 := abs_le.mp (hf s0 h0 hi ihi)
      rw [abs_le]
      constructor <;> linarith [b1.1, b1.2, b2.1, b2.2]
    · have : lo = hi := hone fun h2 => h ⟨hov, h2⟩
      simp [this, hδ]

end

open Classical in
/-- All cells of a segment. -/
theorem cells_near {g : Gels ℝ} (hg : GelsContract g) {srt : List ℝ → List ℝ} (hsrt : ∀ l, SortsTo l (srt l))
    (N : Nat) (Q : Nat → Quad ℝ) (hQ : ∀ k < N, ConvexQuad (Q k)) (a b : P2) (hc : ∀ k < N, ClearLine (Q k) a b)
    (S : Nat → List (Nat × (Fin 4 → ℝ))) (hS : ∀ k < N, CellSpec g srt (Q k) a b k (S k)) (v : Nat → Fin 4 → ℝ) (f : ℝ → ℝ) (δ : ℝ)
    (hf : ∀ k < N, ∀ s0, FlowsReached g s0 → ∀ t ∈ insideParams (Q k) a b,
      |bilin (v k) (foundX g (s0.setQuadPoints (Q k)).finder (a + t • (b - a))) - f t| ≤ δ)
    (hcov : ∀ p ∈ segment ℝ a b, ∃ k < N, p ∈ quadRegion (Q k))
    (honce : ∀ k < N, ∀ l < N, k ≠ l → (insideParams (Q k) a b ∩ insideParams (Q l) a b).Subsingleton) :
    (List.range N).flatMap S ≠ [] ∧
    |∑ k ∈ Finset.range N, ((S k).map fun c => flowDot c.2 (edgeDiff (v k))).sum - (f 1 - f 0)| ≤
      (((Finset.range N).filter fun k => (insideParams (Q k) a b).Nonempty).card : ℝ) * (2 * δ) := by
  have key : ∀ k : Nat, ∃ lo hi : ℝ, k < N → (insideParams (Q k) a b = ∅ ∧ S k = []) ∨
      (lo ≤ hi ∧ 0 ≤ lo ∧ hi ≤ 1 ∧ insideParams (Q k) a b = Set.Icc lo hi ∧ (lo < hi → S k ≠ []) ∧
        |((S k).map fun c => flowDot c.2 (edgeDiff (v k))).sum - (f hi - f lo)| ≤ 2 * δ) := by
    intro k
    by_cases hk : k < N
    · rcases cell_near hg hsrt (hQ k hk) (hc k hk) (hS k hk) (v k) f δ (hf k hk) with h | ⟨lo, hi, h⟩
      · exact ⟨0, 0, fun _ => Or.inl h⟩
      · exact ⟨lo, hi, fun _ => Or.inr h⟩
    · exact ⟨0, 0, fun h => absurd h hk⟩
  choose lo hi key using key
  set s := (Finset.range N).filter fun k => (insideParams (Q k) a b).Nonempty with hs
  have hsk : ∀ k ∈ s, k < N ∧ (lo k ≤ hi k ∧ 0 ≤ lo k ∧ hi k ≤ 1 ∧ insideParams (Q k) a b = Set.Icc (lo k) (hi k) ∧ (lo k < hi k → S k ≠ []) ∧
        |((S k).map fun c => flowDot c.2 (edgeDiff (v k))).sum - (f (hi k) - f (lo k))| ≤ 2 * δ) := by
    intro k hk
    rw [hs, Finset.mem_filter, Finset.mem_range] at hk
    rcases key k hk.1 with h | h
    · exact absurd h.1 hk.2.ne_empty
    · exact ⟨hk.1, h⟩
  have hcov' : ∀ p : ℝ, 0 < p → p < 1 → ∃ k ∈ s, lo k ≤ p ∧ p ≤ hi k := by
    intro p h0 h1
    obtain ⟨k, hk, hr⟩ := hcov (a + p • (b - a)) (mem_segment_iff.mpr ⟨p, h0.le, h1.le, rfl⟩)
    have hm : p ∈ insideParams (Q k) a b := ⟨h0.le, h1.le, hr⟩
    have hks : k ∈ s := by
      rw [hs, Finset.mem_filter, Finset.mem_range]
      exact ⟨hk, ⟨p, hm⟩⟩
    refine ⟨k, hks, ?_⟩
    rw [(hsk k hks).2.2.2.2.1] at hm
    exact hm
  refine ⟨?_, ?_⟩
  · obtain ⟨k, hk, e1, e2⟩ := Telescope.exists_first s lo hi (zero_lt_one) (fun k hk => (hsk k hk).2.2.1) hcov'
    have hne := (hsk k hk).2.2.2.2.2.1 (by rw [e1]; exact e2)
    intro h
    rw [List.flatMap_eq_nil_iff] at h
    exact hne (h k (List.mem_range.mpr (hsk k hk).1))
  · have hsum := Telescope.sum_intervals f lo hi 1 _ s rfl 0 zero_le_one
      (fun k hk => ⟨(hsk k hk).2.2.1, (hsk k hk).2.1, (hsk k hk).2.2.2.1⟩) hcov' (by
        intro k hk l hl hkl hlt
        have h := honce k (hsk k hk).1 l (hsk l hl).1 hkl
        rw [(hsk k hk).2.2.2.2.1, (hsk l hl).2.2.2.2.1, Set.Icc_inter_Icc] at h
        have := h ⟨le_rfl, hlt.le⟩ ⟨hlt.le, le_rfl⟩
        exact absurd this hlt.ne)
    have hrest : ∑ k ∈ Finset.range N, ((S k).map fun c => flowDot c.2 (edgeDiff (v k))).sum =
        ∑ k ∈ s, ((S k).map fun c => flowDot c.2 (edgeDiff (v k))).sum := by
      rw [hs, Finset.sum_filter]
      refine Finset.sum_congr rfl fun k hk => ?_
      split_ifs with h
      · rfl
      · rcases key k (Finset.mem_range.mp hk) with h' | h'
        · rw [h'.2]; rfl
        · rw [Set.not_nonempty_iff_eq_empty, h'.2.2.2.1, Set.Icc_eq_empty_iff] at h
          exact absurd h'.1 h
    rw [hrest, ← hsum, ← Finset.sum_sub_distrib, ← nsmul_eq_mul]
    refine (Finset.abs_sum_le_sum_abs _ _).trans (Finset.sum_le_card_nsmul _ _ _ fun k hk => (hsk k hk).2.2.2.2.2.2)

end Sg.Trap
