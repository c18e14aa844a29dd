import Verif.Props.FlowInterp
import Verif.Proof.Telescope
import Verif.Props.QuadLine
/-
Exact flows through parallelograms, on the real numbers.
-/
namespace Sg.FlowInterp
open Sg.LinearSolve Sg.Triangulate Sg.QuadIntersect Sg.FindPoint Sg.QuadLine Sg.QuadFlows Sg.Spec Sg.Props Sg.Plane

section
variable {q : Quad ℝ}

theorem at_affine (hq : Parallelogram q) (x : Fin 2 → ℝ) : at_ q x = q 0 + x 0 • (q 1 - q 0) + x 1 • (q 3 - q 0) := by
  have h1 := hq.fst
  have h2 := hq.snd
  ext
  · simp only [at_, bilin, Prod.fst_add, Prod.smul_fst, Prod.fst_sub, smul_eq_mul]
    linear_combination x 0 * x 1 * h1
  · simp only [at_, bilin, Prod.snd_add, Prod.smul_snd, Prod.snd_sub, smul_eq_mul]
    linear_combination x 0 * x 1 * h2

theorem convexQuad_of (hq : Parallelogram q) : ConvexQuad q := by
  have h1 := hq.fst
  have h2 := hq.snd
  set D := ((q 1).1 - (q 0).1) * ((q 3).2 - (q 0).2) - ((q 3).1 - (q 0).1) * ((q 1).2 - (q 0).2) with hD
  have e1 : (q 2).1 = (q 1).1 + (q 3).1 - (q 0).1 := by linarith
  have e2 : (q 2).2 = (q 1).2 + (q 3).2 - (q 0).2 := by linarith
  have key : ∀ i, area2 (q i) (q (i + 1)) (q (i + 2)) = D := by
    intro i
    have a1 : (1 : Fin 4) + 1 = 2 := rfl
    have a2 : (1 : Fin 4) + 2 = 3 := rfl
    have a3 : (2 : Fin 4) + 1 = 3 := rfl
    have a4 : (2 : Fin 4) + 2 = 0 := rfl
    have a5 : (3 : Fin 4) + 1 = 0 := rfl
    have a6 : (3 : Fin 4) + 2 = 1 := rfl
    have a7 : (0 : Fin 4) + 1 = 1 := rfl
    have a8 : (0 : Fin 4) + 2 = 2 := rfl
    fin_cases i <;> simp only [Fin.zero_eta, Fin.mk_one, Fin.reduceFinMk, a1, a2, a3, a4, a5, a6, a7, a8, area2, e1, e2, hD] <;> ring
  refine ⟨?_, 0, by rw [key]; exact hq.area⟩
  rcases lt_or_gt_of_ne hq.area with h | h
  · right; intro i; rw [key]; exact h.le
  · left; intro i; rw [key]; exact h.le

theorem region_at (hq : Parallelogram q) {p : P2} (hp : p ∈ quadRegion q) : ∃ x, InCell x ∧ p = at_ q x := by
  have hc : Convex ℝ {p : P2 | ∃ x, InCell x ∧ p = at_ q x} := by
    rintro _ ⟨x, hx, rfl⟩ _ ⟨y, hy, rfl⟩ u v hu hv huv
    refine ⟨fun k => u * x k + v * y k, fun k => ?_, ?_⟩
    · obtain ⟨x0, x1⟩ := hx k
      obtain ⟨y0, y1⟩ := hy k
      constructor
      · positivity
      · nlinarith
    · rw [at_affine hq, at_affine hq, at_affine hq]
      obtain rfl : u = 1 - v := by linarith
      ext <;> simp <;> ring
  refine convexHull_min ?_ hc hp
  rintro _ ⟨i, rfl⟩
  have h1 := hq.fst
  have h2 := hq.snd
  refine ⟨fun k => match i, k with | 0, _ => 0 | 1, 0 => 1 | 1, 1 => 0 | 2, _ => 1 | 3, 0 => 0 | 3, 1 => 1, ?_, ?_⟩
  · intro k; fin_cases i <;> fin_cases k <;> simp
  · fin_cases i <;> ext <;> simp [at_, bilin]

theorem at_region (q : Quad ℝ) {x : Fin 2 → ℝ} (hx : InCell x) : at_ q x ∈ quadRegion q := by
  have hm : ∀ i, q i ∈ quadRegion q := fun i => subset_convexHull ℝ _ ⟨i, rfl⟩
  have hc : Convex ℝ (quadRegion q) := convex_convexHull ℝ _
  obtain ⟨a0, a1⟩ := hx 0
  obtain ⟨b0, b1⟩ := hx 1
  have h1 := hc (hm 0) (hm 1) (sub_nonneg.mpr a1) a0 (by ring)
  have h2 := hc (hm 3) (hm 2) (sub_nonneg.mpr a1) a0 (by ring)
  have h3 := hc h1 h2 (sub_nonneg.mpr b1) b0 (by ring)
  convert h3 using 1
  ext <;> simp [at_, bilin] <;> ring

/-- The search finds the exact position. -/
theorem foundX_at {g : Gels ℝ} (hg : GelsContract g) (hq : Parallelogram q) {s0 : Flows ℝ} (h0 : FlowsReached g s0)
    {x : Fin 2 → ℝ} (hx : InCell x) : foundX g (s0.setQuadPoints q).finder (at_ q x) = x := by
  have hf := flowsReached_finder g h0
  obtain ⟨fa, e1⟩ := findIndices_affine g hg s0.finder hf.per hf.nitermax hf.tolpos hq.fst hq.snd hq.area x (inCell_inGrid hx)
    (s0.setQuadPoints q).finder (hasQuad_set hf).ready (sameGrid_refl _)
  have e1' : findIndices g (s0.setQuadPoints q).finder (at_ q x) = .ok (1, x, fa) := e1
  unfold foundX
  rw [e1']

theorem overlapL_of_mem {a b p : P2} (h1 : p ∈ segment ℝ a b) (h2 : p ∈ quadRegion q) : overlapL q a b = true := by
  have := C76_box_keeps (Line.new : Line ℝ) q a b p h1 h2
  simpa [Line.checkIfOverlap, Line.setQuadPoints, Line.setLinePoints, overlapL] using this

/-- What a cell adds to the flow of a potential: its part of the segment is empty and nothing is stored, or it is from `lo` to
`hi`; then the flow is the difference there, and something is stored if the two are not the same. -/
theorem cell_potential {g : Gels ℝ} (hg : GelsContract g) {srt : List ℝ → List ℝ} (hsrt : ∀ l, SortsTo l (srt l))
    (hq : Parallelogram q) {a b : P2} (hc : ClearLine q a b) {k : Nat} {l : List (Nat × (Fin 4 → ℝ))}
    (hl : CellSpec g srt q a b k l) (v : Fin 4 → ℝ) (Φ : P2 → ℝ) (hΦ : ∀ x, InCell x → Φ (at_ q x) = bilin v x) :
    (insideParams q a b = ∅ ∧ l = []) ∨
    ∃ lo hi, lo ≤ hi ∧ 0 ≤ lo ∧ hi ≤ 1 ∧ insideParams q a b = Set.Icc lo hi ∧ (lo < hi → l ≠ []) ∧
      (l.map fun c => flowDot c.2 (edgeDiff v)).sum = Φ (a + hi • (b - a)) - Φ (a + lo • (b - a)) ∧ ∀ c ∈ l, c.1 = k := by
  have hcv := convexQuad_of hq
  set L := srt (collectedL g q a b) with hL
  have hs : L.Pairwise (· ≤ ·) := sortsTo_le (hsrt _)
  have hp : L.Perm (collectedL g q a b) := (hsrt _).1
  have hin := sorted_inside hg hcv hc hp hs
  rcases List.eq_nil_or_concat L with hnil | ⟨L0, hi, hcat⟩
  · left
    refine ⟨?_, ?_⟩
    · rw [hin, hnil]; ext t; simp
    · rcases hl with ⟨-, h2, -⟩ | ⟨-, h⟩
      · rw [← hL, hnil] at h2; simp at h2
      · exact h
  right
  have hne : L ≠ [] := by rw [hcat]; simp
  obtain ⟨lo, L1, hcons⟩ := List.exists_cons_of_ne_nil hne
  have hlo : L.head? = some lo := by rw [hcons]; rfl
  have hhi : L.getLast? = some hi := by rw [hcat]; simp
  obtain ⟨mlo, mhi, hb⟩ := sorted_ends hs hlo hhi
  have hicc : insideParams q a b = Set.Icc lo hi := by
    rw [hin]; ext t
    simp only [hlo, hhi, Option.some.injEq, Set.mem_setOf_eq, Set.mem_Icc]
    constructor
    · rintro ⟨_, _, rfl, rfl, h⟩; exact h
    · intro h; exact ⟨_, _, rfl, rfl, h⟩
  have hle : lo ≤ hi := (hb lo mlo).2
  have ilo : lo ∈ insideParams q a b := by rw [hicc]; exact ⟨le_rfl, hle⟩
  have ihi : hi ∈ insideParams q a b := by rw [hicc]; exact ⟨hle, le_rfl⟩
  obtain ⟨xlo, clo, elo⟩ := region_at hq ilo.2.2
  obtain ⟨xhi, chi, ehi⟩ := region_at hq ihi.2.2
  refine ⟨lo, hi, hle, ilo.1, ihi.2.1, hicc, ?_, ?_, ?_⟩
  · intro hlt
    have h2 : 2 ≤ L.length := by
      by_contra hlen
      have : L.length = 1 := by have := List.length_pos_of_ne_nil hne; omega
      obtain ⟨z, hz⟩ := List.length_eq_one_iff.mp this
      rw [hz] at hlo hhi
      simp at hlo hhi
      linarith
    have hov : overlapL q a b = true := overlapL_of_mem (mem_segment_iff.mpr ⟨lo, ilo.1, ilo.2.1, rfl⟩) ilo.2.2
    rcases hl with ⟨-, -, s0, -, rfl⟩ | ⟨h, -⟩
    · simp
    · exact absurd ⟨hov, h2⟩ h
  · rcases hl with ⟨-, h2, s0, h0, rfl⟩ | ⟨h, rfl⟩
    · rw [← hL]
      rw [← hL] at h2
      simp only [List.map_cons, List.map_nil, List.sum_cons, List.sum_nil, add_zero]
      rw [pieceSum_potential]
      have hg0 : (L.map (linePoint a b)).getD 0 (0, 0) = at_ q xlo := by
        rw [hcons, List.map_cons, List.getD_cons_zero, linePoint_eq, elo]
      have hg1 : (L.map (linePoint a b)).getD (L.length - 1) (0, 0) = at_ q xhi := by
        rw [hcat]
        simp only [List.map_append, List.map_cons, List.map_nil, List.concat_eq_append, List.length_append, List.length_singleton,
          Nat.add_sub_cancel]
        rw [List.getD_eq_getElem?_getD, List.getElem?_append_right (by simp)]
        simp only [List.length_map, Nat.sub_self, List.getElem?_cons_zero, Option.getD_some]
        rw [linePoint_eq, ehi]
      rw [hg0, hg1, foundX_at hg hq h0 clo, foundX_at hg hq h0 chi, elo, ehi, hΦ _ clo, hΦ _ chi]
    · have : lo = hi := by
        by_contra hlt
        have hlt : lo < hi := lt_of_le_of_ne hle hlt
        have hov : overlapL q a b = true := overlapL_of_mem (mem_segment_iff.mpr ⟨lo, ilo.1, ilo.2.1, rfl⟩) ilo.2.2
        have h2 : ¬ 2 ≤ L.length := fun h2 => h ⟨hov, h2⟩
        have : L.length = 1 := by have := List.length_pos_of_ne_nil hne; omega
        obtain ⟨z, hz⟩ := List.length_eq_one_iff.mp this
        rw [hz] at hlo hhi
        simp at hlo hhi
        linarith
      simp [this]
  · rcases hl with ⟨-, h2, s0, h0, rfl⟩ | ⟨h, rfl⟩
    · simp
    · simp

end

/-- All cells of a segment that is in the cells between two parameters. -/
theorem cells_potential_part {g : Gels ℝ} (hg : GelsContract g) {srt : List ℝ → List ℝ} (hsrt : ∀ l, SortsTo l (srt l))
    (N : Nat) (Q : Nat → Quad ℝ) (hQ : ∀ k < N, Parallelogram (Q k)) (a b : P2) (hc : ∀ k < N, ClearLine (Q k) a b)
    (S : Nat → List (Nat × (Fin 4 → ℝ))) (hS : ∀ k < N, CellSpec g srt (Q k) a b k (S k)) (v : Nat → Fin 4 → ℝ) (Φ : P2 → ℝ)
    (hΦ : ∀ k < N, ∀ x, InCell x → Φ (at_ (Q k) x) = bilin (v k) x)
    {x y : ℝ} (hx : 0 ≤ x) (hy : y ≤ 1) (hxy : x < y) (hcov : ∀ p, x < p → p < y → ∃ k < N, a + p • (b - a) ∈ quadRegion (Q k))
    (hpart : ∀ k < N, insideParams (Q k) a b ⊆ Set.Icc x y)
    (honce : ∀ k < N, ∀ l < N, k ≠ l → (insideParams (Q k) a b ∩ insideParams (Q l) a b).Subsingleton) :
    (List.range N).flatMap S ≠ [] ∧
    ∑ k ∈ Finset.range N, ((S k).map fun c => flowDot c.2 (edgeDiff (v k))).sum = Φ (a + y • (b - a)) - Φ (a + x • (b - a)) := by
  classical
  have key : ∀ k : Nat, ∃ lo hi : ℝ, k < N → (insideParams (Q k) a b = ∅ ∧ S k = []) ∨
      (lo ≤ hi ∧ x ≤ lo ∧ hi ≤ y ∧ insideParams (Q k) a b = Set.Icc lo hi ∧ (lo < hi → S k ≠ []) ∧
        ((S k).map fun c => flowDot c.2 (edgeDiff (v k))).sum = Φ (a + hi • (b - a)) - Φ (a + lo • (b - a))) := by
    intro k
    by_cases hk : k < N
    · rcases cell_potential hg hsrt (hQ k hk) (hc k hk) (hS k hk) (v k) Φ (hΦ k hk) with h | ⟨lo, hi, h1, h2, h3, h4, h5, h6, -⟩
      · exact ⟨0, 0, fun _ => Or.inl h⟩
      · have hp := hpart k hk
        rw [h4] at hp
        exact ⟨lo, hi, fun _ => Or.inr ⟨h1, (hp ⟨le_rfl, h1⟩).1, (hp ⟨h1, le_rfl⟩).2, h4, h5, h6⟩⟩
    · exact ⟨0, 0, fun h => absurd h hk⟩
  choose lo hi key using key
  set s := (Finset.range N).filter fun k => insideParams (Q k) a b ≠ ∅ with hs
  have hsk : ∀ k ∈ s, k < N ∧ (lo k ≤ hi k ∧ x ≤ lo k ∧ hi k ≤ y ∧ insideParams (Q k) a b = Set.Icc (lo k) (hi k) ∧ (lo k < hi k → S k ≠ []) ∧
        ((S k).map fun c => flowDot c.2 (edgeDiff (v k))).sum = Φ (a + hi k • (b - a)) - Φ (a + lo k • (b - a))) := by
    intro k hk
    rw [hs, Finset.mem_filter, Finset.mem_range] at hk
    rcases key k hk.1 with h | h
    · exact absurd h.1 hk.2
    · exact ⟨hk.1, h⟩
  have hcov' : ∀ p : ℝ, x < p → p < y → ∃ k ∈ s, lo k ≤ p ∧ p ≤ hi k := by
    intro p h0 h1
    obtain ⟨k, hk, hr⟩ := hcov p h0 h1
    have hm : p ∈ insideParams (Q k) a b := ⟨hx.trans h0.le, h1.le.trans hy, hr⟩
    have hks : k ∈ s := by
      rw [hs, Finset.mem_filter, Finset.mem_range]
      exact ⟨hk, Set.nonempty_iff_ne_empty.mp ⟨p, hm⟩⟩
    refine ⟨k, hks, ?_⟩
    rw [(hsk k hks).2.2.2.2.1] at hm
    exact hm
  refine ⟨?_, ?_⟩
  · obtain ⟨k, hk, e1, e2⟩ := Telescope.exists_first s lo hi hxy (fun k hk => (hsk k hk).2.2.1) hcov'
    have hne := (hsk k hk).2.2.2.2.2.1 (by rw [e1]; exact e2)
    intro h
    rw [List.flatMap_eq_nil_iff] at h
    exact hne (h k (List.mem_range.mpr (hsk k hk).1))
  · have hsum := Telescope.sum_intervals (fun t => Φ (a + t • (b - a))) lo hi y _ s rfl x hxy.le
      (fun k hk => ⟨(hsk k hk).2.2.1, (hsk k hk).2.1, (hsk k hk).2.2.2.1⟩) hcov' (by
        intro k hk l hl hkl hlt
        have h := honce k (hsk k hk).1 l (hsk l hl).1 hkl
        rw [(hsk k hk).2.2.2.2.1, (hsk l hl).2.2.2.2.1, Set.Icc_inter_Icc] at h
        have := h ⟨le_rfl, hlt.le⟩ ⟨hlt.le, le_rfl⟩
        exact absurd this hlt.ne)
    beta_reduce at hsum
    rw [← hsum, hs, Finset.sum_filter]
    refine Finset.sum_congr rfl fun k hk => ?_
    split_ifs with h
    · have : k ∈ s := by rw [hs, Finset.mem_filter]; exact ⟨hk, h⟩
      exact (hsk k this).2.2.2.2.2.2
    · rcases key k (Finset.mem_range.mp hk) with h' | h'
      · rw [h'.2]; rfl
      · rw [not_not] at h
        rw [h'.2.2.2.1, Set.Icc_eq_empty_iff] at h
        exact absurd h'.1 h

/-- All cells of a segment. -/
theorem cells_potential {g : Gels ℝ} (hg : GelsContract g) {srt : List ℝ → List ℝ} (hsrt : ∀ l, SortsTo l (srt l))
    (N : Nat) (Q : Nat → Quad ℝ) (hQ : ∀ k < N, Parallelogram (Q k)) (a b : P2) (hc : ∀ k < N, ClearLine (Q k) a b)
    (S : Nat → List (Nat × (Fin 4 → ℝ))) (hS : ∀ k < N, CellSpec g srt (Q k) a b k (S k)) (v : Nat → Fin 4 → ℝ) (Φ : P2 → ℝ)
    (hΦ : ∀ k < N, ∀ x, InCell x → Φ (at_ (Q k) x) = bilin (v k) x)
    (hcov : ∀ p ∈ segment ℝ a b, ∃ k < N, p ∈ quadRegion (Q k))
    (honce : ∀ k < N, ∀ l < N, k ≠ l → (insideParams (Q k) a b ∩ insideParams (Q l) a b).Subsingleton) :
    (List.range N).flatMap S ≠ [] ∧
    ∑ k ∈ Finset.range N, ((S k).map fun c => flowDot c.2 (edgeDiff (v k))).sum = Φ b - Φ a := by
  have h := cells_potential_part hg hsrt N Q hQ a b hc S hS v Φ hΦ le_rfl le_rfl zero_lt_one
    (fun p h0 h1 => hcov _ (mem_segment_iff.mpr ⟨p, h0.le, h1.le, rfl⟩)) (fun k _ t ht => ⟨ht.1, ht.2.1⟩) honce
  simpa using h

end Sg.FlowInterp
