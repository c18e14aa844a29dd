import Verif.Props.FindPoint
import Verif.Proof.Witness
/-
Property C82: axes declared periodic.
-/
namespace Sg.Props
open Sg Sg.FindPoint Sg.LinearSolve Sg.Spec Sg.Witness

section
set_option linter.unusedSectionVars false
variable {K : Type} [Field K] [LinearOrder K] [IsStrictOrderedRing K] [FloorRing K] [FOps K] [FOpsLaws K] {n : Nat}

/-- What happens to an index on an axis with a period. -/
theorem truncate_wrap (dims : Nat) (hd : 2 ≤ dims) (d : K) :
    ∃ k : Int, 0 ≤ d - k * dims ∧ d - k * dims < dims ∧
      truncateIndex (dims : K) dims d = min (d - k * dims) (dims - 1) := by
  have e : ((dims - 1 : Nat) : K) = (dims : K) - 1 := by push_cast [Nat.cast_sub (show 1 ≤ dims by omega)]; ring
  have hp : (0 : K) < dims := by exact_mod_cast (show 0 < dims by omega)
  obtain ⟨k1, h1⟩ := FOpsLaws.fmod_cong d (dims : K) hp
  have hb := FOpsLaws.fmod_bound d (dims : K) hp
  obtain ⟨k2, h2⟩ := FOpsLaws.fmod_cong (FOps.fmod d (dims : K) + dims) (dims : K) hp
  have h0 := FOpsLaws.fmod_nonneg (FOps.fmod d (dims : K) + dims) (dims : K) hp (by linarith [hb.1])
  have hb2 := FOpsLaws.fmod_bound (FOps.fmod d (dims : K) + dims) (dims : K) hp
  have hv : FOps.fmod (FOps.fmod d (dims : K) + dims) (dims : K) = d - ((k1 + k2 - 1 : Int) : K) * dims := by
    rw [h2, h1]; push_cast; ring
  refine ⟨k1 + k2 - 1, by rw [← hv]; exact h0, by rw [← hv]; exact hb2.2, ?_⟩
  unfold truncateIndex
  dsimp only
  rw [if_pos hp.ne', hv, e]
  rw [hv] at h0
  have hz : (if d - ((k1 + k2 - 1 : Int) : K) * dims < 0 then 0 else d - ((k1 + k2 - 1 : Int) : K) * dims) =
      d - ((k1 + k2 - 1 : Int) : K) * dims := if_neg (not_lt.2 h0)
  rw [hz]
  split_ifs with h
  · exact (min_eq_right h.le).symm
  · exact (min_eq_left (not_lt.1 h)).symm

/-- **C82** (part) Along an axis declared periodic, with `dims` nodes, a step adds the Newton correction to the index and
takes the result modulo `dims`; what is then beyond the last node is moved back to it.  The correction is the solution
of the linearised equations.  Missing: the period is the number of nodes, not of cells, so on a grid whose last node
repeats the first one the index after the seam is not the one of the same place in the first cells. -/
theorem C82_wrap_partial (g : Gels K) (hg : GelsContract g) (hn : 1 ≤ n) (s00 : Finder K n)
    (dims : Fin n → Nat) (hd : GoodDims dims) (per : Fin n → Int) (coords : Fin n → Nat → K)
    (cs : List (Call K n)) (hcs : SearchOnly cs) (s s' : Finder K n)
    (h : runCalls g (s00.setGrid dims per coords) cs = .ok s) (c : Int) (hnext : s.next g = .ok (c, s')) (hc : c ≠ -3) :
    ∃ (jac : Matrix (Fin n) (Fin n) K) (rhs δ : Fin n → K), s.computeJacobianAndRHS = .ok (jac, rhs) ∧
      (jac.det ≠ 0 → jac.mulVec δ = rhs) ∧
      ∀ i, per i ≠ 0 → ∃ k : Int, 0 ≤ s.dIndices i + δ i - k * dims i ∧ s.dIndices i + δ i - k * dims i < dims i ∧
        s'.dIndices i = min (s.dIndices i + δ i - k * dims i) (dims i - 1) := by
  have hks : KeepsSizes g := hg.sizes
  obtain ⟨hr, hq⟩ := runCalls_same g hks hn cs _ s (ready_setGrid s00 dims per coords) hcs h
  obtain ⟨⟨b, hb⟩, slvr, hs, hok⟩ := hr
  rw [next_eq g hks hn s b hb slvr hs hok] at hnext
  split_ifs at hnext
  · simp only [Except.ok.injEq, Prod.mk.injEq] at hnext; exact absurd hnext.1.symm hc
  · obtain ⟨⟨jac, rhs⟩, hj, hnext⟩ := bind_ok_inv hnext
    obtain ⟨e, he, hnext⟩ := bind_ok_inv hnext
    rw [Except.ok.injEq] at hnext
    refine ⟨jac, rhs, solution g jac rhs, hj, fun hdet => solution_spec g hg hn jac hdet rhs, fun i hi => ?_⟩
    have hI := (finishStep_spec _ e c s' hnext.symm).2.2.2.1
    have hper : s.indexPeriodicity i = (dims i : K) := by
      rw [hq.per]; show (if per i ≠ 0 then (dims i : K) else _) = _; rw [if_pos hi]
    have hdm : s.dims i = dims i := by rw [hq.dims]; rfl
    rw [hI]
    show ∃ k : Int, _ ∧ _ ∧ truncateIndex (s.indexPeriodicity i) (s.dims i) (s.dIndices i + solution g jac rhs i) = _
    rw [hper, hdm]
    exact truncate_wrap (dims i) (hd i).1 _

end

/-! ### The seam -/

/-- A ring of four trapezes around the square with corners (1,0), (0,1), (-1,0), (0,-1): node `(i, j)` is `1 + i` times
corner `j`; there are five nodes around, the last at the place of the first. -/
def ringGrid : Fin 2 → Nat → ℚ := fun c k =>
  (1 + ((k / 5 : Nat) : ℚ)) * (if c = 0 then ([1, 0, -1, 0, 1] : List ℚ) else [0, 1, 0, -1, 0]).getD (k % 5) 0

/-- The finder for this grid, periodic around. -/
def ringFinder (nitermax : Int) (tolpos : ℚ) : Finder ℚ 2 := (Finder.new nitermax tolpos).setGrid ![2, 5] ![0, 1] ringGrid

/-- The last node of each circle is the first one. -/
example : ∀ (c : Fin 2), ringGrid c 4 = ringGrid c 0 ∧ ringGrid c 9 = ringGrid c 5 := by decide +kernel

/-- Stuck at the seam: the state of a search for (9/8, 3/8) at index position (0, 4). -/
structure Stuck (s : Finder ℚ 2) : Prop where
  ready : Ready s
  coords : s.coords = (ringFinder 0 0).coords
  bounds : s.bounds = (ringFinder 0 0).bounds
  per : s.indexPeriodicity = (ringFinder 0 0).indexPeriodicity
  dims : s.dims = ![2, 5]
  target : s.targetPoint = ![9 / 8, 3 / 8]
  tol : s.tolpos ≤ 1 / 10
  pos : s.dIndices = ![0, 4]

def stuckAt : Finder ℚ 2 := (ringFinder 0 0).reset ![0, 4] ![9 / 8, 3 / 8]

theorem stuck_jac : stuckAt.computeJacobianAndRHS = .ok (![![1, 1], ![0, 1]], ![1 / 8, 3 / 8]) := by decide +kernel

theorem stuck_moved : stuckAt.moved cramerGels ![![1, 1], ![0, 1]] ![1 / 8, 3 / 8] = ![0, 4] := by decide +kernel

theorem stuck_error : stuckAt.getError = .ok (5 / 32) := by decide +kernel

theorem stuck_next (s s' : Finder ℚ 2) (c : Int) (h : Stuck s) (hnext : s.next cramerGels = .ok (c, s')) :
    c ≠ 1 ∧ Stuck s' := by
  have hks : KeepsSizes cramerGels := cramerGels_contract.sizes
  have hjac : s.computeJacobianAndRHS = stuckAt.computeJacobianAndRHS := by
    unfold Finder.computeJacobianAndRHS
    rw [h.dims, h.pos, h.coords, h.target]
    rfl
  have hmoved : ∀ jac rhs, s.moved cramerGels jac rhs = stuckAt.moved cramerGels jac rhs := by
    intro jac rhs
    unfold Finder.moved
    rw [h.dims, h.pos, h.per]
    rfl
  have hr' := ready_next cramerGels hks (by norm_num) s c s' h.ready hnext
  obtain ⟨f1, f2, f3, f4, _, f6, f7⟩ := next_frame cramerGels s c s' hnext
  obtain ⟨⟨b, hb⟩, slvr, hs, hok⟩ := h.ready
  rw [next_eq cramerGels hks (by norm_num) s b hb slvr hs hok] at hnext
  have keep : ∀ p : s'.dIndices = ![0, 4], Stuck s' := fun p =>
    ⟨hr', f1.trans h.coords, f2.trans h.bounds, f7.trans h.per, f3.trans h.dims, f4.trans h.target, by rw [f6]; exact h.tol, p⟩
  split_ifs at hnext
  · simp only [Except.ok.injEq, Prod.mk.injEq] at hnext
    exact ⟨by omega, keep (by rw [← hnext.2]; exact h.pos)⟩
  · rw [hjac, stuck_jac] at hnext
    obtain ⟨jr, hj, hnext⟩ := bind_ok_inv hnext
    rw [Except.ok.injEq] at hj
    subst hj
    dsimp only at hnext
    rw [hmoved, stuck_moved] at hnext
    obtain ⟨e, he, hnext⟩ := bind_ok_inv hnext
    rw [Except.ok.injEq] at hnext
    have he' : stuckAt.getError = .ok e := by
      rw [← he]
      unfold Finder.getError Finder.getPosition
      dsimp only
      rw [h.dims, h.coords, h.target]
      rfl
    rw [stuck_error, Except.ok.injEq] at he'
    obtain ⟨_, _, _, hI, _, _, _, h1, _⟩ := finishStep_spec _ e c s' hnext.symm
    refine ⟨fun hc => ?_, keep hI⟩
    have h2 := (h1 hc).1
    dsimp only at h2
    have h3 := h.tol
    rw [← he'] at h2
    linarith

theorem stuck_loop : ∀ (k : Nat) (s s' : Finder ℚ 2) (c : Int), Stuck s → searchLoop cramerGels k s = .ok (c, s') →
    c ≠ 1 ∧ (s'.dIndices = ![0, 4])
  | 0, s, s', c, h, e => by
    simp only [searchLoop, Except.ok.injEq, Prod.mk.injEq] at e
    exact ⟨by omega, by rw [← e.2]; exact h.pos⟩
  | k + 1, s, s', c, h, e => by
    unfold searchLoop at e
    obtain ⟨⟨c1, s1⟩, h1, e⟩ := bind_ok_inv e
    obtain ⟨hc, hs⟩ := stuck_next s s1 c1 h h1
    dsimp only at e
    split_ifs at e
    · exact stuck_loop k s1 s' c hs e
    · simp only [pure, Except.pure, Except.ok.injEq, Prod.mk.injEq] at e
      rw [← e.1, ← e.2]; exact ⟨hc, hs.pos⟩

/-- The first step from (1/2, 15/4), in the last cell, goes to the seam. -/
theorem stuck_start (nitermax : Int) (tolpos : ℚ) (s' : Finder ℚ 2) (c : Int) (ht : tolpos ≤ 1 / 10)
    (h : ((ringFinder nitermax tolpos).reset ![1 / 2, 15 / 4] ![9 / 8, 3 / 8]).next cramerGels = .ok (c, s')) :
    c ≠ 1 ∧ Stuck s' := by
  have hks : KeepsSizes cramerGels := cramerGels_contract.sizes
  have hr : Ready ((ringFinder nitermax tolpos).reset ![1 / 2, 15 / 4] ![9 / 8, 3 / 8]) :=
    ready_reset _ _ _ (ready_setGrid _ _ _ _)
  have hr' := ready_next cramerGels hks (by norm_num) _ c s' hr h
  obtain ⟨f1, f2, f3, f4, _, f6, f7⟩ := next_frame cramerGels _ c s' h
  obtain ⟨⟨b, hb⟩, slvr, hs, hok⟩ := hr
  rw [next_eq cramerGels hks (by norm_num) _ b hb slvr hs hok] at h
  set a : Finder ℚ 2 := (ringFinder 0 0).reset ![1 / 2, 15 / 4] ![9 / 8, 3 / 8] with ha
  have hb' : a.bounds = some b := hb
  have hin : a.inside b = true := by
    have : (match a.bounds with | some b => a.inside b | none => false) = true := by rw [ha]; decide +kernel
    rw [hb'] at this
    exact this
  rw [if_neg (by rw [Bool.not_eq_false]; exact hin)] at h
  obtain ⟨jr, hj, h⟩ := bind_ok_inv h
  obtain ⟨e, he, h⟩ := bind_ok_inv h
  rw [Except.ok.injEq] at h
  have hj' : a.computeJacobianAndRHS = .ok jr := hj
  have hm : (do
      let jr ← a.computeJacobianAndRHS
      return (a.moved cramerGels jr.1 jr.2 0, a.moved cramerGels jr.1 jr.2 1) : Cxx (ℚ × ℚ)) = .ok (0, 4) := by
    rw [ha]; decide +kernel
  rw [hj'] at hm
  have hm' : a.moved cramerGels jr.1 jr.2 = ![0, 4] := by
    simp only [bind, Except.bind, pure, Except.pure, Except.ok.injEq, Prod.mk.injEq] at hm
    funext i
    fin_cases i
    · exact hm.1
    · exact hm.2
  have hpos : (ringFinder nitermax tolpos |>.reset ![1 / 2, 15 / 4] ![9 / 8, 3 / 8]).moved cramerGels jr.1 jr.2 = ![0, 4] := hm'
  rw [hpos] at h he
  have he' : stuckAt.getError = .ok e := he
  rw [stuck_error, Except.ok.injEq] at he'
  obtain ⟨_, _, _, hI, _, _, _, h1, _⟩ := finishStep_spec _ e c s' h.symm
  refine ⟨fun hc => ?_, hr', f1, f2, f7, f3, f4, by rw [f6]; exact ht, hI⟩
  have h2 : e < tolpos := (h1 hc).1
  rw [← he'] at h2
  linarith

/-- **C82 is false** On the ring, periodic around, with a tolerance of at most 1/10: the search for the point
(9/8, 3/8) of the first cell, started in the last cell, does not find it, however many iterations are allowed; the
index stays at the seam.  Started in the second cell it is found at index (1/2, 1/4); and the mirror image of the search,
from the first cell to the last, succeeds. -/
theorem C82_seam_refuted :
    (∀ (nitermax : Int) (tolpos : ℚ), tolpos ≤ 1 / 10 → ∀ (fuel : Nat) (c : Int) (r : (Fin 2 → ℚ) × List ℚ), 1 ≤ fuel →
      searchFrom cramerGels (ringFinder nitermax tolpos) ![1 / 2, 15 / 4] ![9 / 8, 3 / 8] fuel = .ok (c, r) →
      c ≠ 1 ∧ r.1 = ![0, 4]) ∧
    (do let r ← searchFrom cramerGels (ringFinder 8 (1 / 100)) ![1 / 2, 1] ![9 / 8, 3 / 8] 8
        return (r.1, r.2.1 0, r.2.1 1)) = .ok (1, 1 / 2, 1 / 4) ∧
    (do let r ← searchFrom cramerGels (ringFinder 8 (1 / 100)) ![1 / 2, 1 / 4] ![9 / 8, -3 / 8] 8
        return (r.1, r.2.1 0, r.2.1 1)) = .ok (1, 1 / 2, 15 / 4) := by
  refine ⟨?_, by decide +kernel, by decide +kernel⟩
  intro nitermax tolpos ht fuel c r hf h
  obtain ⟨k, rfl⟩ : ∃ k, fuel = k + 1 := ⟨fuel - 1, by omega⟩
  unfold searchFrom at h
  obtain ⟨⟨c1, s1⟩, h1, h⟩ := bind_ok_inv h
  simp only [pure, Except.pure, Except.ok.injEq, Prod.mk.injEq] at h
  unfold searchLoop at h1
  obtain ⟨⟨c2, s2⟩, h2, h1⟩ := bind_ok_inv h1
  obtain ⟨hc, hs⟩ := stuck_start nitermax tolpos s2 c2 ht h2
  rw [← h.1, ← h.2]
  dsimp only at h1
  split_ifs at h1
  · exact stuck_loop k s2 s1 c1 hs h1
  · simp only [pure, Except.pure, Except.ok.injEq, Prod.mk.injEq] at h1
    rw [← h1.1, ← h1.2]; exact ⟨hc, hs.pos⟩

end Sg.Props
