import Verif.Spec.Ieee
import Verif.Props.ConserveState
/-
Property C121: destination cells without area, in the arithmetic of Verif/Spec/Ieee.lean.
-/
namespace Sg.Props
open Sg.LinearSolve Sg.Triangulate Sg.QuadIntersect Sg.Conserve Sg.Spec Sg.Ieee Sg.Witness

section anyArith
variable {F : Type} [Zero F] [One F] [Add F] [Sub F] [Mul F] [Div F] [Neg F] [LT F] [DecidableLT F] [LE F] [DecidableLE F]
  [NatCast F]

theorem srcStep_quotient {g : Gels F} {sort : List (Pt F) → List (Pt F)} {mode : Mode} {src : Grid F} {i j : Nat} {dn : Fin 4 → Nat}
    {q : Quad F} {A : F} {s s' : Work F × List (Nat × F)} (h : srcStep g sort mode src i dn q A j s = .ok s')
    (hj : j < src.numCells) (hs : ∀ p ∈ s.2, p.1 < src.numCells ∧ ∃ a, p.2 = a / A) : ∀ p ∈ s'.2, p.1 < src.numCells ∧ ∃ a, p.2 = a / A := by
  unfold srcStep at h
  simp only [bind, Except.bind, pure, Except.pure] at h
  split at h
  · cases h
  split at h
  · cases h
  split at h
  · split at h
    · cases h
    split at h
    · split at h
      · cases h
      cases h
      intro p hp
      rcases List.mem_append.mp hp with hp | hp
      · exact hs p hp
      · rw [List.mem_singleton] at hp
        subst hp
        exact ⟨hj, _, rfl⟩
    · cases h
      exact hs
  · cases h
    exact hs

/-- Each weight is a quotient by the area computed for the destination cell. -/
theorem weights_quotient {g : Gels F} {sort : List (Pt F) → List (Pt F)} {mode : Mode} {o o' : Interp F} {dst src : Grid F}
    (hd : o.dst = some dst) (hs : o.src = some src) (h0 : o.weights = []) (h : o.computeWeights g sort mode = .ok o') :
    ∀ e ∈ o'.weights, e.1 < dst.numCells ∧ ∃ dn q A, dst.quadCoord e.1 = .ok (dn, q) ∧ hullArea mode (sort [q 0, q 1, q 2, q 3]) = .ok A ∧
      ∀ p ∈ e.2, p.1 < src.numCells ∧ ∃ a, p.2 = a / A := by
  unfold Interp.computeWeights at h
  rw [hd, hs] at h
  simp only [bind, Except.bind, pure, Except.pure] at h
  split at h
  · cases h
  · rename_i s hs
    cases h
    refine forN_inv_ok (fun _ (s : Work F × Table F) => ∀ e ∈ s.2, e.1 < dst.numCells ∧ ∃ dn q A, dst.quadCoord e.1 = .ok (dn, q) ∧
      hullArea mode (sort [q 0, q 1, q 2, q 3]) = .ok A ∧ ∀ p ∈ e.2, p.1 < src.numCells ∧ ∃ a, p.2 = a / A) _ _ _ _ (by rw [h0]; simp) (fun i s s' hi hI hst => ?_) hs
    unfold dstStep at hst
    simp only [bind, Except.bind, pure, Except.pure] at hst
    split at hst
    · cases hst
    rename_i v hq
    split at hst
    · cases hst
    rename_i A hA
    split at hst
    · cases hst
    rename_i w hw
    cases hst
    dsimp only
    have hl : ∀ p ∈ w.2, p.1 < src.numCells ∧ ∃ a, p.2 = a / A :=
      forN_inv_ok (fun _ (s : Work F × List (Nat × F)) => ∀ p ∈ s.2, p.1 < src.numCells ∧ ∃ a, p.2 = a / A) _ _ _ _ (by simp)
        (fun j s s' hj hI hst => srcStep_quotient hst hj hI) hw
    split
    · intro e he
      rcases mem_insert he with rfl | he
      · exact ⟨hi, _, _, _, hq, hA, hl⟩
      · exact hI e he
    · exact hI

end anyArith

section field
variable {K : Type} [Field K] [LinearOrder K] [IsStrictOrderedRing K]

/-- Infinite or NaN. -/
def NotFinite (a : Ieee K) : Prop := ∀ x, a ≠ fin x

omit [IsStrictOrderedRing K] in
theorem div_zero_notFinite (a : Ieee K) : NotFinite (a / fin 0) := by
  intro x h
  cases a with
  | nan => cases h
  | inf s => cases h
  | fin y =>
    have : (fin y / fin 0 : Ieee K) = if y = 0 then nan else inf (decide (y < 0)) := if_pos rfl
    rw [this] at h
    split at h <;> cases h

omit [IsStrictOrderedRing K] in
theorem mul_notFinite {a : Ieee K} (h : NotFinite a) (b : Ieee K) : NotFinite (a * b) := by
  intro x e
  cases a with
  | fin y => exact h y rfl
  | nan => cases b <;> cases e
  | inf s =>
    cases b with
    | nan => cases e
    | inf t => cases e
    | fin y =>
      have : (inf s * fin y : Ieee K) = if y = 0 then nan else inf (s != decide (y < 0)) := rfl
      rw [this] at e
      split at e <;> cases e

omit [LinearOrder K] [IsStrictOrderedRing K] in
theorem add_notFinite (a : Ieee K) {b : Ieee K} (h : NotFinite b) : NotFinite (a + b) := by
  intro x e
  cases b with
  | fin y => exact h y rfl
  | nan => cases a <;> cases e
  | inf s =>
    cases a with
    | nan => cases e
    | fin y => cases e
    | inf t =>
      have : (inf t + inf s : Ieee K) = if t = s then inf t else nan := rfl
      rw [this] at e
      split at e <;> cases e

omit [IsStrictOrderedRing K] in
theorem sum_notFinite (f : Nat → Ieee K) (l : List (Nat × Ieee K)) (hne : l ≠ []) (h : ∀ p ∈ l, NotFinite p.2) :
    NotFinite (weightedSum f l) := by
  obtain ⟨l', p, rfl⟩ : ∃ l' p, l = l' ++ [p] := ⟨l.dropLast, l.getLast hne, (List.dropLast_concat_getLast hne).symm⟩
  unfold weightedSum
  rw [List.foldl_append, List.foldl_cons, List.foldl_nil]
  exact add_notFinite _ (mul_notFinite (h p (by simp)) _)

theorem hullArea_place (mode : Mode) (x y : K) :
    hullArea mode [(fin x, fin y), (fin x, fin y), (fin x, fin y), (fin x, fin y)] = .ok (fin (0 : K)) := by
  have hd : distanceSquare ((fin x, fin y) : Pt (Ieee K)) (fin x, fin y) = fin 0 := by
    unfold distanceSquare
    simp only [fin_zero, fin_sub, fin_mul, fin_add, sub_self, mul_zero, add_zero]
  have he : (eps : Ieee K) = fin (1 / ((1000000000000 : Nat) : K)) := by
    unfold eps
    rw [fin_one, fin_nat, fin_div _ _ (by norm_num)]
  have hlt : ¬ (eps : Ieee K) < fin 0 := by
    rw [he, fin_lt]
    push Not
    positivity
  have hr : removeDegenerateSegments [((fin x, fin y) : Pt (Ieee K)), (fin x, fin y), (fin x, fin y), (fin x, fin y)] = [(fin x, fin y)] := by
    simp only [removeDegenerateSegments, keepDistinct, hd, if_neg hlt]
  have hz : ((0 : Ieee K) * (1 / (1 + 1))) = fin 0 := by
    rw [fin_one, fin_add, fin_div _ _ (by norm_num), fin_zero, fin_mul, zero_mul]
  unfold hullArea Triangulate.build getConvexHullArea
  simp only [memOf, hr]
  simp only [Mem.makeFirstTriangle, List.length_cons, List.length_nil, Nat.zero_add, Nat.reduceLT, if_true, bind, Except.bind, pure, Except.pure,
    forFrom, Nat.reduceAdd, Nat.reduceSub, Mem.addPoint, Mem.scan, List.foldl_nil, List.foldlM_nil, hz]

/-- **C121** A destination cell whose corners are all at one place gets no weights, so that its value is left alone, or its value is
infinite or NaN whatever the data: the overlaps are divided by its area, zero. -/
theorem C121_collapsed (g : Gels (Ieee K)) (sort : List (Pt (Ieee K)) → List (Pt (Ieee K))) (hsort : ∀ l, (sort l).Perm l) (mode : Mode)
    (o o' : Interp (Ieee K)) (h0 : o.weights = []) (ddims sdims per : Nat × Nat) (dx dy sx sy : List (Ieee K))
    (hd : 1 ≤ ddims.1 ∧ 1 ≤ ddims.2) (hs : 1 ≤ sdims.1 ∧ 1 ≤ sdims.2)
    (hdx : ddims.1 * ddims.2 ≤ dx.length) (hdy : ddims.1 * ddims.2 ≤ dy.length)
    (hsx : sdims.1 * sdims.2 ≤ sx.length) (hsy : sdims.1 * sdims.2 ≤ sy.length)
    (h : setAndCompute g sort mode o ddims dx dy sdims per sx sy = .ok o')
    (i : Nat) (x y : K) (hone : ∀ k, gridCell ddims dx dy i k = (fin x, fin y))
    (srcData dstData : List (Ieee K)) (hlen : cellCount sdims ≤ srcData.length) (hlen' : cellCount ddims ≤ dstData.length) :
    ∃ d', o'.apply srcData dstData = .ok d' ∧
      ((∀ l, (i, l) ∉ o'.weights) ∧ d'[i]? = dstData[i]? ∨ ∃ v, d'[i]? = some v ∧ NotFinite v) := by
  obtain ⟨dst, src, -, -, h1, h2, n1, n2, q1, q2, e⟩ := setAndCompute_eq g sort mode o ddims dx dy sdims per sx sy hd hs hdx hdy hsx hsy
  rw [e] at h
  have hq := weights_quotient (o := { o with dst := some dst, src := some src }) (dst := dst) (src := src) rfl rfl h0 h
  have hgood := (computeWeights_good h (by rw [h0]; exact good_nil)).1
  obtain ⟨d', ha, -, hv⟩ := apply_ok o' srcData dstData hgood.sorted (fun e he => by
    obtain ⟨hi, dn, q, A, -, -, hp⟩ := hq e he
    exact ⟨by omega, fun p hp' => by have := (hp p hp').1; omega⟩)
  refine ⟨d', ha, ?_⟩
  have hvi := hv i
  cases hl : o'.weights.lookup i with
  | none =>
    left
    rw [hl] at hvi
    refine ⟨fun l hm => ?_, hvi⟩
    rw [List.lookup_eq_none_iff] at hl
    have := hl (i, l) hm
    simp at this
  | some l =>
    right
    rw [hl] at hvi
    refine ⟨_, hvi, ?_⟩
    have hm : (i, l) ∈ o'.weights := by
      obtain ⟨l1, l2, e1, -⟩ := List.lookup_eq_some_iff.mp hl
      rw [e1]; simp
    obtain ⟨hi, dn, q, A, hc, hA, hp⟩ := hq _ hm
    rw [dst.quadCoord_ok _ h1 hi] at hc
    cases hc
    simp only [q1] at hA
    rw [hone, hone, hone, hone] at hA
    have hrep : sort [(fin x, fin y), (fin x, fin y), (fin x, fin y), (fin x, fin y)] = [(fin x, fin y), (fin x, fin y), (fin x, fin y), (fin x, fin y)] :=
      List.perm_replicate.mp (hsort (List.replicate 4 (fin x, fin y)))
    rw [hrep, hullArea_place] at hA
    cases hA
    refine sum_notFinite _ _ (hgood.nonempty _ hm) fun p hp' => ?_
    obtain ⟨-, a, ea⟩ := hp p hp'
    rw [ea]
    exact div_zero_notFinite a

end field

/-- The numbers of finite entries. -/
def unfin : Ieee ℚ → ℚ
  | fin x => x
  | _ => 0

/-- The library of `cramerGels` on finite entries. -/
noncomputable def ieeeGels : Gels (Ieee ℚ) := fun r =>
  let out := cramerGels { trans := r.trans, m := r.m, n := r.n, nrhs := r.nrhs, a := r.a.map unfin, lda := r.lda, b := r.b.map unfin, ldb := r.ldb, lwork := r.lwork }
  { a := out.a.map fin, b := out.b.map fin, info := out.info }

/-- Sorting by distance, ties in the order given. -/
def ieeeSort (l : List (Pt (Ieee ℚ))) : List (Pt (Ieee ℚ)) :=
  l.insertionSort fun p q => distanceSquareFromCenter (gravityCenter l) p ≤ distanceSquareFromCenter (gravityCenter l) q

/-- **C121** A destination cell shrunk to a point inside of a source cell, and one shrunk to a segment: for a source of constant data one
the value of the first is infinite, all points counting as inside of it (with a vector that keeps its buffer), and the value of the second NaN. -/
theorem C121_refuted : ∃ (g : Gels (Ieee ℚ)) (sort : List (Pt (Ieee ℚ)) → List (Pt (Ieee ℚ))) (o : Interp (Ieee ℚ)),
    (∀ r : GelsArgs ℚ, g { trans := r.trans, m := r.m, n := r.n, nrhs := r.nrhs, a := r.a.map fin, lda := r.lda, b := r.b.map fin, ldb := r.ldb, lwork := r.lwork } =
      { a := (cramerGels r).a.map fin, b := (cramerGels r).b.map fin, info := (cramerGels r).info }) ∧
    GelsContract cramerGels ∧ (∀ l, (sort l).Perm l) ∧ Conserve.new .lenient = .ok o ∧
    ((setAndCompute g sort .keptBuffer o (2, 2) (List.replicate 4 (fin 1)) (List.replicate 4 (fin 1)) (2, 2) (0, 0)
      [fin 0, fin 0, fin 4, fin 4] [fin 0, fin 4, fin 0, fin 4] >>= fun o' => o'.apply [fin 1] [fin 0]) = .ok [inf false]) ∧
    (∀ mode, (setAndCompute g sort mode o (2, 2) [fin 1, fin 3, fin 1, fin 3] (List.replicate 4 (fin 1)) (2, 2) (0, 0)
      [fin 0, fin 0, fin 4, fin 4] [fin 0, fin 4, fin 0, fin 4] >>= fun o' => o'.apply [fin 1] [fin 0]) = .ok [nan]) := by
  refine ⟨ieeeGels, ieeeSort, { src := none, dst := none, weights := [], it := none, it2 := none }, ?_, cramerGels_contract,
    fun l => List.perm_insertionSort _ _, rfl, ?_, ?_⟩
  · intro r
    have hu : ∀ l : List ℚ, (l.map fin).map unfin = l := fun l => by
      rw [List.map_map]
      exact List.map_id'' (fun _ => rfl) l
    unfold ieeeGels
    simp only [hu]
  · decide +kernel
  · intro mode
    cases mode <;> decide +kernel

end Sg.Props
