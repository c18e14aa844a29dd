import Verif.Proof.FlowTrap
import Verif.Props.FlowPotential
import Mathlib.Data.Set.Card
/-
Flows of a potential on grids in whose cells the search finds every point.
-/
namespace Sg.Trap
open Sg Sg.LinearSolve Sg.Triangulate Sg.QuadIntersect Sg.FindPoint Sg.QuadLine Sg.QuadFlows Sg.FlowInterp Sg.Spec Sg.Plane Sg.Props

theorem located_projections (g : Gels ℝ) (hg : GelsContract g) (q : Quad ℝ) (hq : Locates q) (s0 s : Flows ℝ) (h0 : FlowsReached g s0)
    (h : FlowsAfter g (s0.setQuadPoints q) s) (a b : Pt ℝ) (ha : a ∈ quadRegion q) (hb : b ∈ quadRegion q) :
    ∃ p xa xb, project g s a b = .ok (0, p) ∧ InCell xa ∧ InCell xb ∧ apart (at_ q xa) a < 1 / 10 ^ 10 ∧
      apart (at_ q xb) b < 1 / 10 ^ 10 ∧ ∀ v, flowDot p (edgeDiff v) = bilin v xb - bilin v xa := by
  obtain ⟨ta, hta, rfl⟩ := hq.region _ ha
  obtain ⟨tb, htb, rfl⟩ := hq.region _ hb
  obtain ⟨code, p, xa, xb, h1, h2, h3, h4, h5, h6, h7⟩ := C68_potential g hg.sizes q s0 s h0 h (at_ q ta) (at_ q tb)
  obtain ⟨hq1, hs⟩ := flowsAfter_quad g hg.sizes h0 h
  obtain ⟨ya, fa, ea⟩ := hq.search g hg _ hq1 _ hta
  obtain ⟨_, _, _, ea', hq2, -, -⟩ := findIndices_ok g hg.sizes hq1 (at_ q ta)
  rw [ea] at ea'
  simp only [Except.ok.injEq, Prod.mk.injEq] at ea'
  obtain ⟨-, -, rfl⟩ := ea'
  obtain ⟨yb, fb, eb⟩ := hq.search g hg _ hq2 _ htb
  have hpe := (project_eq g s (at_ q ta) (at_ q tb) _ _ _ _ _ _ ea eb).1
  rw [h1] at hpe
  simp only [ne_eq, not_true_eq_false, if_false, Except.ok.injEq, Prod.mk.injEq] at hpe
  obtain ⟨rfl, -⟩ := hpe
  exact ⟨p, xa, xb, h1, h3, h4, h6 rfl, h7 (by norm_num), h5⟩

theorem located_flow (pert : Nat → Nat → Nat → ℝ) (g : Gels ℝ) (hg : GelsContract g) (srt : List ℝ → List ℝ)
    (hsrt : ∀ l, SortsTo l (srt l)) (n0 n1 : Nat) (h0 : 2 ≤ n0) (h1 : 2 ≤ n1) (hf : n0 * n1 ≤ 1073741824) (xs ys : List ℝ)
    (hx : n0 * n1 ≤ xs.length) (hy : n0 * n1 ≤ ys.length) (n : Nat) (hn : 1 ≤ n) (us vs : List ℝ) (hu : n ≤ us.length)
    (hv : n ≤ vs.length) (htr : ∀ i < n0 - 1, ∀ j < n1 - 1, Locates (gridQuad n1 xs ys i j))
    (phi : Nat → Nat → ℝ) (x y : List ℝ) (hp : PotentialData n0 n1 phi x y) (d : List ℝ) (hd : n - 1 ≤ d.length) :
    ∃ d', flowWith pert g srt [] n0 n1 xs ys n us vs 1 x y d = .ok d' ∧
      ∀ k < n - 1, ∀ a b, a = movedNode pert n us vs k → b = movedNode pert n us vs (k + 1) →
        (∀ p ∈ segment ℝ a b, ∃ i < n0 - 1, ∃ j < n1 - 1, p ∈ quadRegion (gridQuad n1 xs ys i j)) →
        (∀ i < n0 - 1, ∀ j < n1 - 1, ∀ i' < n0 - 1, ∀ j' < n1 - 1, (i, j) ≠ (i', j') →
          (insideParams (gridQuad n1 xs ys i j) a b ∩ insideParams (gridQuad n1 xs ys i' j') a b).Subsingleton) →
        (∀ i < n0 - 1, ∀ j < n1 - 1, ClearLine (gridQuad n1 xs ys i j) a b) →
        ∀ (c : Nat → Nat → ℝ) (f : ℝ → ℝ) (δ : ℝ),
          (∀ i < n0 - 1, ∀ j < n1 - 1, ∀ t ∈ insideParams (gridQuad n1 xs ys i j) a b, ∀ z, InCell z →
            apart (at_ (gridQuad n1 xs ys i j) z) (a + t • (b - a)) < 1 / 10 ^ 10 → |bilin (cellPhi phi i j) z + c i j - f t| ≤ δ) →
          ∃ w, d'[k]? = some w ∧ |w - (f 1 - f 0)| ≤
            (Set.ncard {ij : Nat × Nat | ij.1 < n0 - 1 ∧ ij.2 < n1 - 1 ∧ (insideParams (gridQuad n1 xs ys ij.1 ij.2) a b).Nonempty} : ℝ) *
              (2 * δ) := by
  classical
  obtain ⟨S, hS, hrun⟩ := flow_once pert g hg.sizes srt n0 n1 h0 h1 hf xs ys hx hy n hn us vs hu hv
  obtain ⟨d', e, -, -, hd'⟩ := hrun phi x y hp d hd
  refine ⟨d', e, fun k hk a b ea eb hcov honce hclear c f δ hfδ => ?_⟩
  subst ea eb
  set a := movedNode pert n us vs k with ha
  set b := movedNode pert n us vs (k + 1) with hb
  have hsp : ∀ {k}, k < (n0 - 1) * (n1 - 1) → k / (n1 - 1) < n0 - 1 ∧ k % (n1 - 1) < n1 - 1 := fun hk => (cell_split hk).2.2
  have hpair : ∀ {i j}, j < n1 - 1 → (i * (n1 - 1) + j) / (n1 - 1) = i ∧ (i * (n1 - 1) + j) % (n1 - 1) = j := by
    intro i j hj
    constructor
    · rw [Nat.add_comm, Nat.add_mul_div_right _ _ (by omega), Nat.div_eq_of_lt hj, Nat.zero_add]
    · rw [Nat.add_comm, Nat.add_mul_mod_self_right, Nat.mod_eq_of_lt hj]
  obtain ⟨hne, hsum⟩ := cells_near hg hsrt ((n0 - 1) * (n1 - 1)) (fun j => gridQuad n1 xs ys (j / (n1 - 1)) (j % (n1 - 1)))
    (fun j hj => (htr _ (hsp hj).1 _ (hsp hj).2).convex) a b (fun j hj => hclear _ (hsp hj).1 _ (hsp hj).2) (S k) (hS k hk)
    (fun j q => cellPhi phi (j / (n1 - 1)) (j % (n1 - 1)) q + c (j / (n1 - 1)) (j % (n1 - 1))) f δ
    (by
      intro j hj s0 hs0 t ht
      obtain ⟨hin, hnear⟩ := (htr _ (hsp hj).1 _ (hsp hj).2).found hg hs0 ht.2.2
      have := hfδ _ (hsp hj).1 _ (hsp hj).2 t ht _ hin hnear
      convert this using 3
      simp only [bilin]; ring)
    (by
      intro p hp
      obtain ⟨i, hi, j, hj, hr⟩ := hcov p hp
      refine ⟨i * (n1 - 1) + j, cell_lt hi hj, ?_⟩
      beta_reduce
      rw [(hpair hj).1, (hpair hj).2]
      exact hr)
    (by
      intro i hi j hj hij
      refine honce _ (hsp hi).1 _ (hsp hi).2 _ (hsp hj).1 _ (hsp hj).2 fun he => hij ?_
      simp only [Prod.mk.injEq] at he
      rw [← Nat.div_add_mod' i (n1 - 1), ← Nat.div_add_mod' j (n1 - 1), he.1, he.2])
  refine ⟨_, by rw [hd' k hk, if_neg hne], ?_⟩
  have hcard : Set.ncard {ij : Nat × Nat | ij.1 < n0 - 1 ∧ ij.2 < n1 - 1 ∧ (insideParams (gridQuad n1 xs ys ij.1 ij.2) a b).Nonempty} =
      ((Finset.range ((n0 - 1) * (n1 - 1))).filter fun j =>
        (insideParams (gridQuad n1 xs ys (j / (n1 - 1)) (j % (n1 - 1))) a b).Nonempty).card := by
    rw [← Set.ncard_coe_finset]
    refine Set.ncard_congr (fun ij _ => ij.1 * (n1 - 1) + ij.2) ?_ ?_ ?_
    · rintro ⟨i, j⟩ ⟨hi, hj, hne⟩
      rw [Finset.mem_coe, Finset.mem_filter, Finset.mem_range, (hpair hj).1, (hpair hj).2]
      exact ⟨cell_lt hi hj, hne⟩
    · rintro ⟨i, j⟩ ⟨i', j'⟩ ⟨-, hj, -⟩ ⟨-, hj', -⟩ he
      dsimp only at he hj hj'
      have e1 := (hpair (i := i) hj)
      have e2 := (hpair (i := i') hj')
      rw [he] at e1
      exact Prod.ext (e1.1.symm.trans e2.1) (e1.2.symm.trans e2.2)
    · intro j hj
      rw [Finset.mem_coe, Finset.mem_filter, Finset.mem_range] at hj
      exact ⟨(j / (n1 - 1), j % (n1 - 1)), ⟨(hsp hj.1).1, (hsp hj.1).2, hj.2⟩, Nat.div_add_mod' _ _⟩
  rw [hcard]
  refine le_trans (le_of_eq ?_) hsum
  congr 2
  refine Finset.sum_congr rfl fun j _ => ?_
  congr 2
  funext cc
  congr 1
  funext ed
  fin_cases ed <;> simp [edgeDiff]

end Sg.Trap
