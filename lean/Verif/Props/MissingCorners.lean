import Verif.Props.MissingCoords
/-
Property C138: missing coordinates (NaN) of cell corners in conservative regridding, in the arithmetic of Verif/Spec/Ieee.lean.
-/
namespace Sg.Props
open Sg.LinearSolve Sg.Triangulate Sg.QuadIntersect Sg.Conserve Sg.Spec Sg.Ieee Sg.Witness

section anyArith
variable {F : Type} [Zero F] [One F] [Add F] [Sub F] [Mul F] [Div F] [Neg F] [LT F] [DecidableLT F] [LE F] [DecidableLE F]
  [NatCast F]

theorem srcStep_apart {g : Gels F} {sort : List (Pt F) → List (Pt F)} {mode : Mode} {src : Grid F} {i j : Nat} {dn : Fin 4 → Nat}
    {q : Quad F} {A : F} {s s' : Work F × List (Nat × F)} (h : srcStep g sort mode src i dn q A j s = .ok s')
    (hq : ∀ q', boxesOverlap q q' = false) : s'.2 = s.2 := by
  unfold srcStep at h
  simp only [bind, Except.bind, pure, Except.pure] at h
  split at h
  · cases h
  simp only [Isect.checkIfBoxesOverlap, Isect.setQuadPoints, hq] at h
  cases h
  rfl

/-- A destination cell whose box overlaps no box has no weights. -/
theorem weights_apart {g : Gels F} {sort : List (Pt F) → List (Pt F)} {mode : Mode} {o o' : Interp F} {dst src : Grid F}
    (hd : o.dst = some dst) (hs : o.src = some src) (h0 : o.weights = []) (h : o.computeWeights g sort mode = .ok o') :
    ∀ e ∈ o'.weights, ∃ dn q q', dst.quadCoord e.1 = .ok (dn, q) ∧ boxesOverlap q q' = true := by
  unfold Interp.computeWeights at h
  rw [hd, hs] at h
  simp only [bind, Except.bind, pure, Except.pure] at h
  split at h
  · cases h
  · rename_i s hs
    cases h
    refine forN_inv_ok (fun _ (s : Work F × Table F) => ∀ e ∈ s.2, ∃ dn q q', dst.quadCoord e.1 = .ok (dn, q) ∧ boxesOverlap q q' = true)
      _ _ _ _ (by rw [h0]; simp) (fun i s s' hi hI hst => ?_) hs
    unfold dstStep at hst
    simp only [bind, Except.bind, pure, Except.pure] at hst
    split at hst
    · cases hst
    rename_i v hq
    split at hst
    · cases hst
    rename_i A hA
    split at hst
    · cases hst
    rename_i w hw
    cases hst
    dsimp only
    split
    · rename_i hne
      intro e he
      rcases Conserve.mem_insert he with rfl | he
      · by_contra hcon
        push Not at hcon
        have hz : w.2 = [] := forN_inv_ok (fun _ (s : Work F × List (Nat × F)) => s.2 = []) _ _ _ _ rfl
          (fun j s s' hj hI hst => by
            rw [srcStep_apart hst fun q' => by simpa using hcon v.1 v.2 q' hq]
            exact hI) hw
        rw [hz] at hne
        cases hne
      · exact hI e he
    · exact hI

end anyArith

section field
variable {K : Type} [Field K] [LinearOrder K]

omit [Field K] in
theorem stdMin_nan (b : Ieee K) : stdMin nan b = nan := if_neg fun h => by cases b <;> exact h
omit [Field K] in
theorem stdMax_nan (b : Ieee K) : stdMax nan b = nan := if_neg fun h => h

/-- The bounds of a cell whose last corner is missing are missing, and its box overlaps no box. -/
theorem axisOverlap_nan (q q' : Fin 4 → Ieee K) (h : q 3 = nan) : axisOverlap q q' = false := by
  unfold axisOverlap quadMin quadMax
  simp only [h, stdMin_nan, stdMax_nan]
  exact decide_eq_false fun h => h

/-- **C138** A destination cell whose last corner (that of the first axis' lower and the second axis' upper index) misses a coordinate has no
weights, and its value is left alone. -/
theorem C138_destination_partial [IsStrictOrderedRing K] (g : Gels (Ieee K)) (sort : List (Pt (Ieee K)) → List (Pt (Ieee K))) (mode : Mode)
    (o o' : Interp (Ieee K)) (h0 : o.weights = []) (ddims sdims per : Nat × Nat) (dx dy sx sy : List (Ieee K))
    (hd : 1 ≤ ddims.1 ∧ 1 ≤ ddims.2) (hs : 1 ≤ sdims.1 ∧ 1 ≤ sdims.2)
    (hdx : ddims.1 * ddims.2 ≤ dx.length) (hdy : ddims.1 * ddims.2 ≤ dy.length)
    (hsx : sdims.1 * sdims.2 ≤ sx.length) (hsy : sdims.1 * sdims.2 ≤ sy.length)
    (h : setAndCompute g sort mode o ddims dx dy sdims per sx sy = .ok o')
    (i : Nat) (hi : (gridCell ddims dx dy i 3).1 = nan ∨ (gridCell ddims dx dy i 3).2 = nan)
    (srcData dstData : List (Ieee K)) (hlen : cellCount sdims ≤ srcData.length) (hlen' : cellCount ddims ≤ dstData.length) :
    (∀ l, (i, l) ∉ o'.weights) ∧ ∃ d', o'.apply srcData dstData = .ok d' ∧ d'[i]? = dstData[i]? := by
  obtain ⟨dst, src, -, -, h1, h2, n1, n2, q1, q2, e⟩ := setAndCompute_eq g sort mode o ddims dx dy sdims per sx sy hd hs hdx hdy hsx hsy
  rw [e] at h
  have hq := weights_quotient (o := { o with dst := some dst, src := some src }) (dst := dst) (src := src) rfl rfl h0 h
  have hgood := (computeWeights_good h (by rw [h0]; exact good_nil)).1
  have hno : ∀ l, (i, l) ∉ o'.weights := by
    intro l hm
    obtain ⟨hlt, -⟩ := hq _ hm
    obtain ⟨dn, q, q', hc, hb⟩ := weights_apart (o := { o with dst := some dst, src := some src }) (dst := dst) (src := src) rfl rfl h0 h _ hm
    rw [dst.quadCoord_ok _ h1 hlt] at hc
    cases hc
    unfold boxesOverlap at hb
    rw [Bool.and_eq_true] at hb
    rcases hi with hi | hi
    · rw [axisOverlap_nan _ _ (by rw [q1]; exact hi)] at hb
      cases hb.1
    · have hb2 := hb.2
      rw [axisOverlap_nan _ _ (by rw [q1]; exact hi)] at hb2
      cases hb2
  refine ⟨hno, ?_⟩
  obtain ⟨d', ha, -, hv⟩ := apply_ok o' srcData dstData hgood.sorted (fun e he => by
    obtain ⟨hi, dn, q, A, -, -, hp⟩ := hq e he
    exact ⟨by omega, fun p hp' => by have := (hp p hp').1; omega⟩)
  refine ⟨d', ha, ?_⟩
  have hvi := hv i
  cases hl : o'.weights.lookup i with
  | none =>
    rw [hl] at hvi
    exact hvi
  | some l =>
    obtain ⟨l1, l2, e1, -⟩ := List.lookup_eq_some_iff.mp hl
    exact absurd (by rw [e1]; simp) (hno l)

end field

/-- Sorting by distance from the center, points neither of which is smaller staying in the order given. -/
def nanSort (l : List (Pt (Ieee ℚ))) : List (Pt (Ieee ℚ)) :=
  l.insertionSort fun p q => ¬ distanceSquareFromCenter (gravityCenter l) q < distanceSquareFromCenter (gravityCenter l) p

/-- **C138** is false as a user would expect it.  One source cell, [0, 4] x [0, 4], with the value one, and a destination cell,
[1, 2] x [1, 2]: its value is one, with its first corner missing it is infinite, with the third one missing the value is that of the
triangle of the others.  With a missing third corner a vector is read past its end.  And two source cells, halves of the destination
cell, with the value one: if a coordinate of a corner of one of them is missing the value is 3/4. -/
theorem C138_refuted : ∃ (g : Gels (Ieee ℚ)) (sort : List (Pt (Ieee ℚ)) → List (Pt (Ieee ℚ))) (o : Interp (Ieee ℚ)),
    KeepsSizes g ∧ (∀ l, (sort l).Perm l) ∧ Conserve.new .lenient = .ok o ∧
    (∀ c v, (c = fin 1 ∧ v = fin 1 ∨ c = nan ∧ v = inf false) →
      (setAndCompute g sort .keptBuffer o (2, 2) [c, fin 1, fin 2, fin 2] [fin 1, fin 2, fin 1, fin 2] (2, 2) (0, 0)
        [fin 0, fin 0, fin 4, fin 4] [fin 0, fin 4, fin 0, fin 4] >>= fun o' => o'.apply [fin 1] [fin 7]) = .ok [v]) ∧
    (setAndCompute g sort .keptBuffer o (2, 2) [fin 1, fin 1, fin 2, nan] [fin 1, fin 2, fin 1, fin 2] (2, 2) (0, 0)
      [fin 0, fin 0, fin 4, fin 4] [fin 0, fin 4, fin 0, fin 4] >>= fun o' => o'.apply [fin 1] [fin 7]) = .ok [fin 1] ∧
    (setAndCompute g sort .standard o (2, 2) [fin 1, fin 1, fin 2, nan] [fin 1, fin 2, fin 1, fin 2] (2, 2) (0, 0)
      [fin 0, fin 0, fin 4, fin 4] [fin 0, fin 4, fin 0, fin 4] >>= fun o' => o'.apply [fin 1] [fin 7]) = .error .outOfBounds ∧
    (∀ c v, (c = fin 2 ∧ v = fin 1 ∨ c = nan ∧ v = fin (3 / 4)) →
      (setAndCompute g sort .keptBuffer o (2, 2) [fin 0, fin 0, fin 2, fin 2] [fin 0, fin 2, fin 0, fin 2] (2, 3) (0, 0)
        [fin 0, fin 0, fin 0, fin 2, fin 2, c] [fin 0, fin 1, fin 2, fin 0, fin 1, fin 2] >>= fun o' => o'.apply [fin 1, fin 1] [fin 7]) = .ok [v]) := by
  refine ⟨nanGels2, nanSort, { src := none, dst := none, weights := [], it := none, it2 := none }, nanGels2_sizes,
    fun l => List.perm_insertionSort _ _, rfl, ?_, by decide +kernel, by decide +kernel, ?_⟩
  · rintro c v (⟨rfl, rfl⟩ | ⟨rfl, rfl⟩) <;> decide +kernel
  · rintro c v (⟨rfl, rfl⟩ | ⟨rfl, rfl⟩) <;> decide +kernel

/-! ### The hypotheses are met -/

/-- C138: two destination cells in a source cell, the last corner of the second one missing a coordinate: the run succeeds, the first
cell gets its value and the second one is left alone. -/
example : (setAndCompute nanGels2 nanSort .keptBuffer { src := none, dst := none, weights := [], it := none, it2 := none } (2, 3)
    [fin 1, fin 1, nan, fin 2, fin 2, fin 2] [fin 1, fin 2, fin 3, fin 1, fin 2, fin 3] (2, 2) (0, 0)
    [fin 0, fin 0, fin 4, fin 4] [fin 0, fin 4, fin 0, fin 4] >>= fun o' => o'.apply [fin 1] [fin 7, fin 8]) = .ok [fin 1, fin 8] ∧
    (gridCell (2, 3) [fin 1, fin 1, nan, fin 2, fin 2, fin 2] [fin 1, fin 2, fin 3, fin 1, fin 2, fin 3] 1 3 : Pt (Ieee ℚ)).1 = nan := by
  constructor
  · decide +kernel
  · decide +kernel

end Sg.Props
