import Verif.Model.ConserveRaw
import Verif.Proof.FindPointRaw
import Verif.Proof.ConserveGrid
import Verif.Props.ConserveState
import Verif.Props.ConserveRect
/-
Property C105: conservative interpolation with the integers as the code keeps them.
-/
namespace Sg.Props
open Sg Sg.LinearSolve Sg.Triangulate Sg.QuadIntersect Sg.Conserve Sg.FindPoint Sg.Spec

section generic
set_option linter.unusedSectionVars false
variable {F : Type} [Zero F] [One F] [Add F] [Sub F] [Mul F] [Div F] [Neg F] [LT F] [DecidableLT F] [LE F] [DecidableLE F]
  [NatCast F]

theorem forFrom_congr {σ : Type} {f h : Nat → σ → Cxx σ} : ∀ (n start : Nat) (s : σ),
    (∀ k s, start ≤ k → k < start + n → f k s = h k s) → forFrom start n s f = forFrom start n s h
  | 0, _, _, _ => rfl
  | n + 1, start, s, H => by
    unfold forFrom
    rw [H start s le_rfl (by omega)]
    cases h start s with
    | error e => rfl
    | ok s' => exact forFrom_congr n (start + 1) s' fun k s h1 h2 => H k s (by omega) (by omega)

theorem forN_congr {σ : Type} {f h : Nat → σ → Cxx σ} (n : Nat) (s : σ) (H : ∀ k s, k < n → f k s = h k s) :
    forN n s f = forN n s h := forFrom_congr n 0 s fun k s _ hk => H k s (by omega)

/-- The two representations of a grid agree. -/
structure SameCounts (r : RGrid F) (gr : Grid F) : Prop where
  pos : 1 ≤ gr.nodeDims.1 ∧ 1 ≤ gr.nodeDims.2
  small : gr.nodeDims.1 ≤ 2147483647 ∧ gr.nodeDims.2 ≤ 2147483647
  nodeDims : r.nodeDims = ((gr.nodeDims.1 : Int), (gr.nodeDims.2 : Int))
  cellDims : r.cellDims = ((gr.nodeDims.1 : Int) - 1, (gr.nodeDims.2 : Int) - 1)
  cellDimProd : r.cellDimProd = ((gr.nodeDims.2 : Int) - 1, 1)
  nodeDimProd : r.nodeDimProd = ((gr.nodeDims.2 : Int), 1)
  numCells : r.numCells = (gr.nodeDims.1 - 1) * (gr.nodeDims.2 - 1)
  coords : r.coords = gr.coords

theorem SameCounts.cells {r : RGrid F} {gr : Grid F} (h : SameCounts r gr) : r.numCells = gr.numCells := by
  rw [h.numCells]; simp [Grid.numCells, Grid.cellDims]

theorem toSize_pred {n : Nat} (h : 1 ≤ n) (h' : n ≤ 2147483647) : toSize ((n : Int) - 1) = n - 1 := by
  have : (n : Int) - 1 = ((n - 1 : Nat) : Int) := by omega
  rw [this, toSize_nat (by omega)]

theorem SameCounts.quad {r : RGrid F} {gr : Grid F} (h : SameCounts r gr) {k : Nat} (hk : k < gr.numCells) :
    r.quadCoord k = gr.quadCoord k := by
  obtain ⟨p1, p2⟩ := h.pos
  obtain ⟨s1, s2⟩ := h.small
  have hk' : k < (gr.nodeDims.1 - 1) * (gr.nodeDims.2 - 1) := by
    have := h.cells; rw [← this, h.numCells] at hk; exact hk
  have hc2 : 0 < gr.nodeDims.2 - 1 := by
    rcases Nat.eq_zero_or_pos (gr.nodeDims.2 - 1) with h0 | h0
    · rw [h0] at hk'; omega
    · exact h0
  have hc1 : 0 < gr.nodeDims.1 - 1 := by
    rcases Nat.eq_zero_or_pos (gr.nodeDims.1 - 1) with h0 | h0
    · rw [h0] at hk'; omega
    · exact h0
  have t1 : toSize (1 : Int) = 1 := by decide
  have hnode : ∀ a b, a < gr.nodeDims.1 - 1 → b < gr.nodeDims.2 - 1 → ∀ i,
      sadd (sadd 0 (smul gr.nodeDims.2 (sadd a (offset i).1))) (smul 1 (sadd b (offset i).2)) =
        0 + 1 * gr.nodeDims.2 * (a + (offset i).1) + 1 * (b + (offset i).2) ∧
      0 + 1 * gr.nodeDims.2 * (a + (offset i).1) + 1 * (b + (offset i).2) ≤ 4611686018427387904 := by
    intro a b ha hb i
    have o1 : (offset i).1 ≤ 1 := by fin_cases i <;> decide
    have o2 : (offset i).2 ≤ 1 := by fin_cases i <;> decide
    have hle : gr.nodeDims.2 * (a + (offset i).1) ≤ 2147483647 * 2147483647 := Nat.mul_le_mul s2 (by omega)
    unfold sadd smul
    rw [Nat.mod_eq_of_lt (show a + (offset i).1 < 18446744073709551616 by omega),
      Nat.mod_eq_of_lt (show b + (offset i).2 < 18446744073709551616 by omega), Nat.zero_add, Nat.zero_add, Nat.one_mul,
      Nat.one_mul, Nat.mod_mod]
    rw [Nat.mod_eq_of_lt (show gr.nodeDims.2 * (a + (offset i).1) < 18446744073709551616 by omega),
      Nat.mod_eq_of_lt (show b + (offset i).2 < 18446744073709551616 by omega), Nat.mod_eq_of_lt (by omega)]
    exact ⟨rfl, by omega⟩
  have hread : ∀ m ≤ 4611686018427387904, r.nodeCoord m = gr.nodeCoord m := by
    intro m hm
    unfold RGrid.nodeCoord Grid.nodeCoord sadd smul
    rw [h.coords, Nat.mod_eq_of_lt (show m * 2 < 18446744073709551616 by omega),
      Nat.mod_eq_of_lt (show m * 2 + 0 < 18446744073709551616 by omega), Nat.mod_eq_of_lt (by omega)]
  have ha : k / (gr.nodeDims.2 - 1) % (gr.nodeDims.1 - 1) < gr.nodeDims.1 - 1 := Nat.mod_lt _ hc1
  have hb : k / 1 % (gr.nodeDims.2 - 1) < gr.nodeDims.2 - 1 := Nat.mod_lt _ hc2
  have okb : ∀ {ε α β : Type} (a : α) (f : α → Except ε β), (Except.ok a >>= f) = f a := fun _ _ => rfl
  have ud : ∀ a b, b ≠ 0 → udiv a b = .ok (a / b) := fun a b h => by unfold udiv; rw [if_neg h]
  have um : ∀ a b, b ≠ 0 → umod a b = .ok (a % b) := fun a b h => by unfold umod; rw [if_neg h]
  have q1 : gr.cellDimProd = (gr.nodeDims.2 - 1, 1) := by simp [Grid.cellDimProd, Grid.cellDims]
  have q2 : gr.cellDims = (gr.nodeDims.1 - 1, gr.nodeDims.2 - 1) := rfl
  have q3 : gr.nodeDimProd = (gr.nodeDims.2, 1) := by simp [Grid.nodeDimProd]
  unfold RGrid.quadCoord Grid.quadCoord
  simp only [h.cellDimProd, h.cellDims, h.nodeDimProd, q1, q2, q3, t1,
    toSize_pred p1 s1, toSize_pred p2 s2, toSize_nat (show gr.nodeDims.2 < 18446744073709551616 by omega),
    ud _ _ hc2.ne', um _ _ hc1.ne', um _ _ hc2.ne', ud _ _ Nat.one_ne_zero, okb]
  have hn := fun i => (hnode _ _ ha hb i).1
  have hl := fun i => (hnode _ _ ha hb i).2
  simp only [Nat.one_mul] at hn hl
  simp only [hn, Nat.one_mul, hread _ (hl 0), hread _ (hl 1), hread _ (hl 2), hread _ (hl 3)]
  rfl

theorem loadGrid_eq {n0 n1 : Nat} {D : List Int} {C : List (List F)} {x y : List F} (h0 : D[0]? = some (n0 : Int))
    (h1 : D[1]? = some (n1 : Int)) (hx : C[0]? = some x) (hy : C[1]? = some y) (p0 : 1 ≤ n0) (p1 : 1 ≤ n1)
    (s0 : n0 ≤ 2147483647) (s1 : n1 ≤ 2147483647) (hs : 2 * (n0 * n1) ≤ 1152921504606846975) :
    (∃ gr r, makeGrid (n0, n1) x y = .ok gr ∧ loadGrid D C = .ok r ∧ SameCounts r gr) ∨
      ∃ e, makeGrid (n0, n1) x y = .error e ∧ loadGrid D C = .error (.undefined e) := by
  have i0 : isub (n0 : Int) 1 = .ok ((n0 : Int) - 1) := by
    have : inI32 ((n0 : Int) - 1) := by unfold inI32; omega
    simp only [isub, chk, if_pos this]
  have i1 : isub (n1 : Int) 1 = .ok ((n1 : Int) - 1) := by
    have : inI32 ((n1 : Int) - 1) := by unfold inI32; omega
    simp only [isub, chk, if_pos this]
  have m0 : imul 1 ((n1 : Int) - 1) = .ok ((n1 : Int) - 1) := by
    have : inI32 ((n1 : Int) - 1) := by unfold inI32; omega
    simp only [imul, chk, Int.one_mul, if_pos this]
  have m1 : imul 1 (n1 : Int) = .ok (n1 : Int) := by
    have : inI32 (n1 : Int) := by unfold inI32; omega
    simp only [imul, chk, Int.one_mul, if_pos this]
  have hcells : (n0 - 1) * (n1 - 1) ≤ n0 * n1 := Nat.mul_le_mul (by omega) (by omega)
  have e1 : smul (smul 1 n0) n1 = n0 * n1 := by
    unfold smul
    rw [Nat.one_mul, Nat.mod_eq_of_lt (show n0 < 18446744073709551616 by omega), Nat.mod_eq_of_lt (by omega)]
  have e2 : smul (smul 1 (n0 - 1)) (n1 - 1) = (n0 - 1) * (n1 - 1) := by
    unfold smul
    rw [Nat.one_mul, Nat.mod_eq_of_lt (show n0 - 1 < 18446744073709551616 by omega), Nat.mod_eq_of_lt (by omega)]
  have e3 : smul 2 (n0 * n1) = 2 * (n0 * n1) := by
    unfold smul; rw [Nat.mod_eq_of_lt (by omega)]
  have er : resize ([] : List F) (2 * (n0 * n1)) 0 = .ok (List.replicate (2 * (n0 * n1)) 0) := by
    rw [resize_ok hs]; simp [rsz]
  have okb : ∀ {ε α β : Type} (a : α) (f : α → Except ε β), (Except.ok a >>= f) = f a := fun _ _ => rfl
  have okl : ∀ {α : Type} (a : α), lift' (.ok a : Cxx α) = .ok a := fun _ => rfl
  unfold loadGrid makeGrid
  simp only [vget_eq_ok.mpr h0, vget_eq_ok.mpr h1, vget_eq_ok.mpr hx, vget_eq_ok.mpr hy, i0, i1, m0, m1, okb, okl,
    toSize_nat (show n0 < 18446744073709551616 by omega), toSize_nat (show n1 < 18446744073709551616 by omega),
    toSize_pred p0 s0, toSize_pred p1 s1, e1, e2, e3, er, Nat.one_mul]
  cases hA : (forN (n0 * n1) (List.replicate (2 * (n0 * n1)) (0 : F)) fun i v => do
      let c ← vget x i
      vset v (i * 2 + 0) c) with
  | error e => exact Or.inr ⟨e, rfl, rfl⟩
  | ok v =>
    simp only [okb, okl]
    cases hB : (forN (n0 * n1) v fun i v => do
        let c ← vget y i
        vset v (i * 2 + 1) c) with
    | error e => exact Or.inr ⟨e, rfl, rfl⟩
    | ok w => exact Or.inl ⟨_, _, rfl, rfl, ⟨p0, p1⟩, ⟨s0, s1⟩, rfl, rfl, rfl, rfl, rfl, rfl⟩

theorem weightsR_eq (g : Gels F) (sort : List (Pt F) → List (Pt F)) (mode : Mode) {o : RInterp F} {r r' : RGrid F} {d s : Grid F}
    (hd : o.dst = some r) (hs : o.src = some r') (h : SameCounts r d) (h' : SameCounts r' s) :
    (o.computeWeights g sort mode).map RInterp.toInterp = o.toInterp.computeWeights g sort mode := by
  have hgrid : ∀ {r : RGrid F} {gr : Grid F}, SameCounts r gr →
      ({ nodeDims := (r.nodeDims.1.toNat, r.nodeDims.2.toNat), coords := r.coords } : Grid F) = gr := by
    intro r gr h
    rw [h.nodeDims, h.coords]
    simp only [Int.toNat_natCast]
  have hsrc : ∀ i dn q a, forN r'.numCells (σ := Work F × List (Nat × F)) = forN s.numCells → ∀ w,
      forN s.numCells w (srcStepR g sort mode r' i dn q a) = forN s.numCells w (srcStep g sort mode s i dn q a) := by
    intro i dn q a _ w
    apply forN_congr
    intro k t hk
    unfold srcStepR srcStep
    rw [h'.quad hk]
  have hloop : forN r.numCells ((Isect.new, Cache.empty), o.weights) (dstStepR g sort mode r' r) =
      forN d.numCells ((Isect.new, Cache.empty), o.weights) (dstStep g sort mode s d) := by
    rw [h.cells]
    apply forN_congr
    intro k t hk
    unfold dstStepR dstStep
    rw [h.quad hk, h'.cells]
    simp only [hsrc _ _ _ _ (by rw [h'.cells])]
  unfold RInterp.computeWeights Interp.computeWeights
  simp only [RInterp.toInterp, hd, hs, Option.map_some, hgrid h, hgrid h', hloop, bind, Except.bind, pure, Except.pure]
  cases forN d.numCells ((Isect.new, Cache.empty), o.weights) (dstStep g sort mode s d) with
  | error e => rfl
  | ok v => simp only [Except.map, RInterp.toInterp, Option.map_some, hgrid h, hgrid h']

/-- **C105.** For grids with at least one node along each axis, counts in the range of `int` and fewer than `2^59` nodes, setting both
grids and computing the weights through the interface does what the model without sizes does: no product wraps around, no
index leaves its array that would not there.  (`C`, `C'` are the arrays of the caller, of any length: a short one has the same
undefined behaviour in both.) -/
theorem C105_weights_partial (g : Gels F) (sort : List (Pt F) → List (Pt F)) (mode : Mode) (o : RInterp F) {n0 n1 m0 m1 : Nat}
    {D D' P' : List Int} {C C' : List (List F)} {x y x' y' : List F} (per : Nat × Nat)
    (h0 : D[0]? = some (n0 : Int)) (h1 : D[1]? = some (n1 : Int)) (hx : C[0]? = some x) (hy : C[1]? = some y)
    (h0' : D'[0]? = some (m0 : Int)) (h1' : D'[1]? = some (m1 : Int)) (hx' : C'[0]? = some x') (hy' : C'[1]? = some y')
    (hP : 2 ≤ P'.length)
    (pos : 1 ≤ n0 ∧ 1 ≤ n1 ∧ 1 ≤ m0 ∧ 1 ≤ m1)
    (small : n0 ≤ 2147483647 ∧ n1 ≤ 2147483647 ∧ m0 ≤ 2147483647 ∧ m1 ≤ 2147483647)
    (hs : 2 * (n0 * n1) ≤ 1152921504606846975) (hs' : 2 * (m0 * m1) ≤ 1152921504606846975) :
    (do
      let o ← o.setDstGrid D C
      let o ← o.setSrcGrid D' P' C'
      lift' (o.computeWeights g sort mode) : Call' (RInterp F)).map RInterp.toInterp =
    lift' (setAndCompute g sort mode o.toInterp (n0, n1) x y (m0, m1) per x' y') := by
  have okb : ∀ {ε α β : Type} (a : α) (f : α → Except ε β), (Except.ok a >>= f) = f a := fun _ _ => rfl
  have erb : ∀ {ε α β : Type} (e : ε) (f : α → Except ε β), (Except.error e >>= f) = .error e := fun _ _ => rfl
  have okl : ∀ {α : Type} (a : α), lift' (.ok a : Cxx α) = .ok a := fun _ => rfl
  have erl : ∀ {α : Type} (e : UB), lift' (.error e : Cxx α) = .error (.undefined e) := fun _ => rfl
  have v0 : vget P' 0 = .ok P'[0] := vget_ok (by omega)
  have v1 : vget P' 1 = .ok P'[1] := vget_ok (by omega)
  have hgrid : ∀ {r : RGrid F} {gr : Grid F}, SameCounts r gr →
      ({ nodeDims := (r.nodeDims.1.toNat, r.nodeDims.2.toNat), coords := r.coords } : Grid F) = gr := by
    intro r gr h
    rw [h.nodeDims, h.coords]
    simp only [Int.toNat_natCast]
  unfold setAndCompute RInterp.setDstGrid RInterp.setSrcGrid Interp.setDstGrid Interp.setSrcGrid
  rcases loadGrid_eq h0 h1 hx hy pos.1 pos.2.1 small.1 small.2.1 hs with ⟨gr, r, e, e', hr⟩ | ⟨u, e, e'⟩
  · rcases loadGrid_eq h0' h1' hx' hy' pos.2.2.1 pos.2.2.2 small.2.2.1 small.2.2.2 hs' with ⟨gr', r', f, f', hr'⟩ | ⟨u, f, f'⟩
    · simp only [e, e', f, f', v0, v1, okb, okl, pure, Except.pure]
      have := weightsR_eq g sort mode (o := { o with dst := some r, src := some r' }) rfl rfl hr hr'
      simp only [RInterp.toInterp, Option.map_some, hgrid hr, hgrid hr'] at this
      simp only [RInterp.toInterp]
      rw [← this]
      cases RInterp.computeWeights g sort mode { o with dst := some r, src := some r' } with
      | error u => rfl
      | ok o' => rfl
    · simp only [e, e', f, f', v0, v1, okb, erb, okl, erl, pure, Except.pure]
      rfl
  · simp only [e, e', erb, erl]
    rfl

/-- **C105.** A grid without nodes that has not exactly one node along the other axis, such as 0 × 0, is accepted without a look
at the arrays, and has cells: computing the weights for it as the destination reads past the end of an empty vector. -/
theorem C105_empty_refuted (g : Gels F) (sort : List (Pt F) → List (Pt F)) (mode : Mode) (o : RInterp F) {n0 n1 : Nat}
    (hz : n0 * n1 = 0) (h0 : n0 ≠ 1) (h1 : n1 ≠ 1) (s0 : n0 ≤ 2147483647) (s1 : n1 ≤ 2147483647) (C : List (List F)) :
    ∃ o', o.setDstGrid [(n0 : Int), (n1 : Int)] C = .ok o' ∧
      (o.src ≠ none → o'.computeWeights g sort mode = .error .outOfBounds) := by
  have i0 : isub (n0 : Int) 1 = .ok ((n0 : Int) - 1) := by
    have : inI32 ((n0 : Int) - 1) := by unfold inI32; omega
    simp only [isub, chk, if_pos this]
  have i1 : isub (n1 : Int) 1 = .ok ((n1 : Int) - 1) := by
    have : inI32 ((n1 : Int) - 1) := by unfold inI32; omega
    simp only [isub, chk, if_pos this]
  have m0 : imul 1 ((n1 : Int) - 1) = .ok ((n1 : Int) - 1) := by
    have : inI32 ((n1 : Int) - 1) := by unfold inI32; omega
    simp only [imul, chk, Int.one_mul, if_pos this]
  have m1 : imul 1 (n1 : Int) = .ok (n1 : Int) := by
    have : inI32 (n1 : Int) := by unfold inI32; omega
    simp only [imul, chk, Int.one_mul, if_pos this]
  have e1 : smul (smul 1 n0) n1 = 0 := by
    unfold smul
    rw [Nat.one_mul, Nat.mod_eq_of_lt (show n0 < 18446744073709551616 by omega), hz]
  have e3 : smul 2 0 = 0 := rfl
  have er : resize ([] : List F) 0 0 = .ok [] := rfl
  have okb : ∀ {ε α β : Type} (a : α) (f : α → Except ε β), (Except.ok a >>= f) = f a := fun _ _ => rfl
  have okl : ∀ {α : Type} (a : α), lift' (.ok a : Cxx α) = .ok a := fun _ => rfl
  have f0 : ∀ {σ : Type} (s : σ) (f : Nat → σ → Cxx σ), forN 0 s f = .ok s := fun _ _ => rfl
  have hload : loadGrid [(n0 : Int), (n1 : Int)] C = .ok
      { nodeDims := (n0, n1), cellDims := ((n0 : Int) - 1, (n1 : Int) - 1), cellDimProd := ((n1 : Int) - 1, 1)
        nodeDimProd := (n1, 1), coords := [], numPoints := 0
        numCells := smul (smul 1 (toSize ((n0 : Int) - 1))) (toSize ((n1 : Int) - 1)) } := by
    unfold loadGrid
    simp only [vget_eq_ok.mpr (show [(n0 : Int), (n1 : Int)][0]? = some (n0 : Int) from rfl),
      vget_eq_ok.mpr (show [(n0 : Int), (n1 : Int)][1]? = some (n1 : Int) from rfl), i0, i1, m0, m1, okb, okl,
      toSize_nat (show n0 < 18446744073709551616 by omega), toSize_nat (show n1 < 18446744073709551616 by omega), e1, e3, er, f0]
    rfl
  have hc : 0 < smul (smul 1 (toSize ((n0 : Int) - 1))) (toSize ((n1 : Int) - 1)) := by
    unfold smul toSize
    rcases Nat.mul_eq_zero.mp hz with rfl | rfl
    · rcases Nat.eq_zero_or_pos n1 with rfl | hn
      · decide
      · have : (((n1 : Int) - 1) % 18446744073709551616).toNat = n1 - 1 := by omega
        rw [this]
        have : (((0 : Nat) : Int) - 1) % 18446744073709551616 = 18446744073709551615 := by decide
        rw [this]
        simp only [Nat.one_mul]
        have : (18446744073709551615 : Int).toNat = 18446744073709551615 := by decide
        rw [this]
        omega
    · have : (((n0 : Int) - 1) % 18446744073709551616).toNat = if n0 = 0 then 18446744073709551615 else n0 - 1 := by
        split_ifs with h
        · subst h; decide
        · omega
      rw [this]
      have : ((((0 : Nat) : Int) - 1) % 18446744073709551616).toNat = 18446744073709551615 := by decide
      rw [this]
      split_ifs with h
      · decide
      · omega
  refine ⟨{ o with dst := some (RGrid.mk ((n0 : Int), (n1 : Int)) ((n0 : Int) - 1, (n1 : Int) - 1) ((n1 : Int) - 1, 1)
    ((n1 : Int), 1) [] 0 (smul (smul 1 (toSize ((n0 : Int) - 1))) (toSize ((n1 : Int) - 1)))) }, ?_, ?_⟩
  · unfold RInterp.setDstGrid
    rw [hload]
    rfl
  · intro hsrc
    obtain ⟨src, hsrc⟩ := Option.ne_none_iff_exists'.mp hsrc
    unfold RInterp.computeWeights
    simp only [hsrc]
    generalize hN : smul (smul 1 (toSize ((n0 : Int) - 1))) (toSize ((n1 : Int) - 1)) = N at hc ⊢
    obtain ⟨N, rfl⟩ := Nat.exists_eq_succ_of_ne_zero hc.ne'
    have hdiv : ∀ n : Nat, n ≠ 1 → n ≤ 2147483647 → toSize ((n : Int) - 1) ≠ 0 := by
      intro n hn hs
      unfold toSize
      omega
    have hfirst : ∀ s : Conserve.Work F × Table F, dstStepR g sort mode src
        { nodeDims := ((n0 : Int), (n1 : Int)), cellDims := ((n0 : Int) - 1, (n1 : Int) - 1), cellDimProd := ((n1 : Int) - 1, 1)
          nodeDimProd := ((n1 : Int), 1), coords := [], numPoints := 0, numCells := N + 1 } 0 s = .error .outOfBounds := by
      intro s
      unfold dstStepR RGrid.quadCoord RGrid.nodeCoord
      simp only [udiv, umod, if_neg (hdiv n0 h0 s0), if_neg (hdiv n1 h1 s1), show toSize 1 = 1 from by decide,
        if_neg (show ¬ (1 : Nat) = 0 by omega), okb]
      rfl
    unfold forN forFrom
    simp only [hfirst]
    rfl

/-- **C105.** The smallest `int` as a count overflows; fewer than two flags are read past their end; without a destination grid, or with
destination cells but no source grid, members are read that were never set. -/
theorem C105_undefined (g : Gels F) (sort : List (Pt F) → List (Pt F)) (mode : Mode) (o : RInterp F) (C : List (List F)) :
    (∀ n : Int, o.setDstGrid [-2147483648, n] C = .error (.undefined .signedOverflow)) ∧
    (∀ n : Int, 0 ≤ n ∧ n ≤ 2147483647 → o.setDstGrid [n, -2147483648] C = .error (.undefined .signedOverflow)) ∧
    (∀ D P : List Int, P.length < 2 → o.setSrcGrid D P C = .error (.undefined .outOfBounds)) ∧
    (o.dst = none → o.computeWeights g sort mode = .error .uninit) ∧
    (∀ d, o.dst = some d → d.numCells ≠ 0 → o.src = none → o.computeWeights g sort mode = .error .uninit) := by
  have okb : ∀ {ε α β : Type} (a : α) (f : α → Except ε β), (Except.ok a >>= f) = f a := fun _ _ => rfl
  have erb : ∀ {ε α β : Type} (e : ε) (f : α → Except ε β), (Except.error e >>= f) = .error e := fun _ _ => rfl
  have okl : ∀ {α : Type} (a : α), lift' (.ok a : Cxx α) = .ok a := fun _ => rfl
  have erl : ∀ {α : Type} (e : UB), lift' (.error e : Cxx α) = .error (.undefined e) := fun _ => rfl
  have im : isub (-2147483648) 1 = .error .signedOverflow := by decide
  refine ⟨fun n => ?_, fun n hn => ?_, fun D P hP => ?_, fun h => ?_, fun d h hc h' => ?_⟩
  · unfold RInterp.setDstGrid loadGrid
    simp only [vget_eq_ok.mpr (show [(-2147483648 : Int), n][0]? = some (-2147483648) from rfl), okb, okl, im, erl, erb]
  · have i0 : isub n 1 = .ok (n - 1) := by
      have : inI32 (n - 1) := by unfold inI32; omega
      simp only [isub, chk, if_pos this]
    unfold RInterp.setDstGrid loadGrid
    simp only [vget_eq_ok.mpr (show [n, (-2147483648 : Int)][0]? = some n from rfl),
      vget_eq_ok.mpr (show [n, (-2147483648 : Int)][1]? = some (-2147483648) from rfl), okb, okl, i0, im, erl, erb]
  · unfold RInterp.setSrcGrid
    rcases P with _ | ⟨a, _ | ⟨b, P⟩⟩
    · rfl
    · rfl
    · simp only [List.length_cons] at hP; omega
  · unfold RInterp.computeWeights
    rw [h]
  · unfold RInterp.computeWeights
    rw [h, h']
    exact if_neg hc

/-! ### The indices that `get` reports -/

/-- One pass of `get` and `next`, until `next` tells the end, with the indices as `get` stores them. -/
inductive Reports (em : EndMode) : Interp F → List (Int × Int × F) → Interp F → Prop
  | last {o o' : Interp F} {x : Int × Int × F} : getInt o = .ok x → o.next em = .ok (o', 1) → Reports em o [x] o'
  | more {o o1 o' : Interp F} {x : Int × Int × F} {l : List (Int × Int × F)} : getInt o = .ok x → o.next em = .ok (o1, 0) →
      Reports em o1 l o' → Reports em o (x :: l) o'

theorem reports_of_drains {em : EndMode} {o o' : Interp F} {l : List (Nat × Nat × F)} (h : Drains em o l o') :
    Reports em o (l.map fun x => (SideIterator.toInt x.1, SideIterator.toInt x.2.1, x.2.2)) o' := by
  induction h with
  | last h1 h2 => exact .last (by rw [getInt, h1]; rfl) h2
  | more h1 h2 _ ih => exact .more (by rw [getInt, h1]; rfl) h2 ih

theorem toInt_small {n : Nat} (h : n < 2147483648) : SideIterator.toInt n = n := by
  unfold SideIterator.toInt
  rw [Nat.mod_eq_of_lt (by omega), if_pos h]

/-- The entries of a table are for cells of the two grids. -/
def Within (N M : Nat) (t : Table F) : Prop := ∀ e ∈ t, e.1 < N ∧ ∀ p ∈ e.2, p.1 < M

theorem srcLoop_within {g : Gels F} {sort : List (Pt F) → List (Pt F)} {mode : Mode} {src : Grid F} {i : Nat} {dn : Fin 4 → Nat}
    {q : Quad F} {a : F} {w : Conserve.Work F} {s' : Conserve.Work F × List (Nat × F)}
    (h : forN src.numCells (w, []) (srcStep g sort mode src i dn q a) = .ok s') : ∀ p ∈ s'.2, p.1 < src.numCells := by
  refine forN_inv_ok (fun _ (s : Conserve.Work F × List (Nat × F)) => ∀ p ∈ s.2, p.1 < src.numCells) _ _ _ _
    (by intro p hp; cases hp) ?_ h
  intro k s s' hk hI hst
  unfold srcStep at hst
  simp only [bind, Except.bind, pure, Except.pure] at hst
  split at hst
  · cases hst
  split at hst
  · cases hst
  split at hst
  · split at hst
    · cases hst
    split at hst
    · split at hst
      · cases hst
      cases hst
      intro p hp
      rcases List.mem_append.mp hp with hp | hp
      · exact hI p hp
      · rw [List.mem_singleton.mp hp]; exact hk
    · cases hst; exact hI
  · cases hst; exact hI

theorem weights_within {g : Gels F} {sort : List (Pt F) → List (Pt F)} {mode : Mode} {o o' : Interp F} {d s : Grid F}
    (hd : o.dst = some d) (hs : o.src = some s) (h : o.computeWeights g sort mode = .ok o')
    (h0 : Within d.numCells s.numCells o.weights) : Within d.numCells s.numCells o'.weights := by
  unfold Interp.computeWeights at h
  simp only [hd, hs, bind, Except.bind, pure, Except.pure] at h
  split at h
  · cases h
  rename_i v hv
  cases h
  refine forN_inv_ok (fun _ (t : Conserve.Work F × Table F) => Within d.numCells s.numCells t.2) _ _ _ _ h0 ?_ hv
  intro k t t' hk hI hst
  unfold dstStep at hst
  simp only [bind, Except.bind, pure, Except.pure] at hst
  split at hst
  · cases hst
  split at hst
  · cases hst
  split at hst
  · cases hst
  rename_i hl
  cases hst
  dsimp only
  split
  · intro e he
    rcases mem_insert he with rfl | he
    · exact ⟨hk, srcLoop_within hl⟩
    · exact hI e he
  · exact hI

theorem setAndCompute_steps {g : Gels F} {sort : List (Pt F) → List (Pt F)} {mode : Mode} {o o' : Interp F}
    (ho : Conserve.new .lenient = .ok o) {ddims sdims per : Nat × Nat} {dx dy sx sy : List F}
    (h : setAndCompute g sort mode o ddims dx dy sdims per sx sy = .ok o') :
    Built g sort mode o' ∧ ∃ (o1 o2 : Interp F) (d s : Grid F), makeGrid ddims dx dy = .ok d ∧ makeGrid sdims sx sy = .ok s ∧ o2.dst = some d ∧
      o2.src = some s ∧ o2.weights = [] ∧ o2.computeWeights g sort mode = .ok o' ∧ o.setDstGrid ddims dx dy = .ok o1 := by
  have hw : o.weights = [] := by cases ho; rfl
  have hb : Built g sort mode o := .new ho
  unfold setAndCompute at h
  cases e1 : o.setDstGrid ddims dx dy with
  | error u => rw [e1] at h; cases h
  | ok o1 =>
    rw [e1] at h
    change (do let o ← o1.setSrcGrid sdims per sx sy; o.computeWeights g sort mode) = .ok o' at h
    cases e2 : o1.setSrcGrid sdims per sx sy with
    | error u => rw [e2] at h; cases h
    | ok o2 =>
      rw [e2] at h
      change o2.computeWeights g sort mode = .ok o' at h
      refine ⟨.weights (.src (.dst hb e1) e2) h, o1, o2, ?_⟩
      unfold Interp.setDstGrid at e1
      unfold Interp.setSrcGrid at e2
      cases m1 : makeGrid ddims dx dy with
      | error u => rw [m1] at e1; cases e1
      | ok d =>
        cases m2 : makeGrid sdims sx sy with
        | error u => rw [m2] at e2; cases e2
        | ok s =>
          rw [m1] at e1
          rw [m2] at e2
          cases e1
          cases e2
          exact ⟨d, s, rfl, rfl, rfl, rfl, hw, h, rfl⟩

theorem makeGrid_nodeDims {dims : Nat × Nat} {x y : List F} {gr : Grid F} (h : makeGrid dims x y = .ok gr) : gr.nodeDims = dims := by
  unfold makeGrid at h
  simp only [bind, Except.bind, pure, Except.pure] at h
  split at h
  · cases h
  split at h
  · cases h
  cases h; rfl

/-- **C105.** If neither grid has more than `2^31` cells, then after computing weights with a new object, `reset` and one pass of `get`
and `next` report every stored weight once, with the indices of its two cells: the conversion to `int` changes none. -/
theorem C105_get_partial (g : Gels F) (sort : List (Pt F) → List (Pt F)) (mode : Mode) (o o' : Interp F)
    (ho : Conserve.new .lenient = .ok o) (ddims sdims per : Nat × Nat) (dx dy sx sy : List F)
    (h : setAndCompute g sort mode o ddims dx dy sdims per sx sy = .ok o')
    (hd : cellCount ddims ≤ 2147483648) (hs : cellCount sdims ≤ 2147483648) (hne : o'.weights ≠ []) :
    ∃ o0, o'.reset .lenient = .ok o0 ∧ o0.weights = o'.weights ∧
      Reports .lenient o0 ((triples o'.weights).map fun x => ((x.1 : Int), (x.2.1 : Int), x.2.2)) o0 := by
  obtain ⟨hb, o1, o2, d, s, e1, e2, h1, h2, hw, e3, -⟩ := setAndCompute_steps ho h
  obtain ⟨o0, hr, hw0, hdr⟩ := C61_iteration_partial g sort mode o' hb hne
  refine ⟨o0, hr, hw0, ?_⟩
  have hin : Within d.numCells s.numCells o'.weights := by
    refine weights_within h1 h2 e3 ?_
    rw [hw]; intro e he; cases he
  have hdc : d.numCells = cellCount ddims := by rw [Grid.numCells_eq, makeGrid_nodeDims e1]; rfl
  have hsc : s.numCells = cellCount sdims := by rw [Grid.numCells_eq, makeGrid_nodeDims e2]; rfl
  have := reports_of_drains hdr
  rw [List.map_congr_left (g := fun x : Nat × Nat × F => ((x.1 : Int), (x.2.1 : Int), x.2.2))] at this
  · exact this
  intro x hx
  simp only [triples, List.mem_flatMap, List.mem_map] at hx
  obtain ⟨e, he, p, hp, rfl⟩ := hx
  have b1 := (hin e he).1
  have b2 := (hin e he).2 p hp
  simp only [toInt_small (show e.1 < 2147483648 by omega), toInt_small (show p.1 < 2147483648 by omega)]

end generic

theorem mem_of_lookup_eq {α β : Type} [BEq α] [LawfulBEq α] {k : α} {v : β} : ∀ {l : List (α × β)}, l.lookup k = some v → (k, v) ∈ l
  | [], h => by cases h
  | (a, b) :: l, h => by
    rw [List.lookup_cons] at h
    split at h
    · rename_i hk
      cases h
      rw [eq_of_beq hk]
      exact List.mem_cons_self ..
    · exact List.mem_cons_of_mem _ (mem_of_lookup_eq h)

theorem stored_of_weight {F : Type} [Zero F] {t : Table F} {i j : Nat} (h : weightOf t i j ≠ 0) : ∃ e ∈ t, ∃ p ∈ e.2, e.1 = i ∧ p.1 = j := by
  unfold weightOf at h
  cases e1 : t.lookup i with
  | none => rw [e1] at h; exact absurd rfl h
  | some l =>
    rw [e1] at h
    cases e2 : l.lookup j with
    | none => simp only [Option.getD_some, e2, Option.getD_none] at h; exact absurd rfl h
    | some w => exact ⟨(i, l), mem_of_lookup_eq e1, (j, w), mem_of_lookup_eq e2, rfl, rfl⟩

open Sg.Witness Sg.Grids in
/-- **C105.** `get` is wrong beyond `2^31` destination cells: regridding to a grid of 46341 × 46341 cells from one cell over the same square,
computed without error, the pass reports a negative destination index. -/
theorem C105_get_refuted : ∃ (o o' o0 : Interp ℝ) (d s : List ℝ × List ℝ) (l : List (Int × Int × ℝ)),
    Conserve.new .lenient = .ok o ∧
    createRectangularGrid 46342 46342 (0, 0) (46341, 46341) (List.replicate 2147580964 0, List.replicate 2147580964 0) = .ok d ∧
    createRectangularGrid 2 2 (0, 0) (46341, 46341) (List.replicate 4 0, List.replicate 4 0) = .ok s ∧
    setAndCompute refGels stdSort .keptBuffer o (46342, 46342) d.1 d.2 (2, 2) (0, 0) s.1 s.2 = .ok o' ∧
    o'.reset .lenient = .ok o0 ∧ Reports .lenient o0 l o0 ∧ ∃ x ∈ l, x.1 < 0 := by
  have hnew : Conserve.new (F := ℝ) .lenient = .ok { src := none, dst := none, weights := [], it := none, it2 := none } := rfl
  obtain ⟨d, s, o', h1, h2, h3, h4, -⟩ := C86_rectangular_partial refGels refGels_contract stdSort stdSort_ok (0, 0) 46341 46341 1 1
    (by norm_num) (by norm_num) (by norm_num) (by norm_num) (by norm_num) (by norm_num) (by norm_num) (by norm_num)
    (Nat.coprime_one_right _) (Nat.coprime_one_right _)
    (0, 0) (46341, 46341) (by norm_num) (by norm_num) (List.replicate 2147580964 0, List.replicate 2147580964 0)
    (List.replicate 4 0, List.replicate 4 0) (by rw [List.length_replicate]) (by rw [List.length_replicate])
    (by rw [List.length_replicate]) (by rw [List.length_replicate])
    { src := none, dst := none, weights := [], it := none, it2 := none } rfl
  have hw := h4 46340 (by norm_num) 46340 (by norm_num) 0 (by norm_num) 0 (by norm_num)
  norm_num [overlapLength] at hw
  obtain ⟨e, he, p, hp, h5, -⟩ := stored_of_weight (t := o'.weights) (i := 2147488280) (j := 0) (by rw [hw]; norm_num)
  obtain ⟨hb, -⟩ := setAndCompute_steps hnew h3
  obtain ⟨o0, hr, hw0, hdr⟩ := C61_iteration_partial refGels stdSort .keptBuffer o' hb (List.ne_nil_of_mem he)
  refine ⟨_, o', o0, d, s, _, hnew, h1, h2, h3, hr, reports_of_drains hdr, _, List.mem_map_of_mem
    (List.mem_flatMap.mpr ⟨e, he, List.mem_map_of_mem hp⟩), ?_⟩
  rw [h5]
  show SideIterator.toInt 2147488280 < 0
  decide

/-! ### The hypotheses can be met -/

open Sg.Witness

/-- One cell of side 2 from one cell of side 1 in its corner, with the integers as the code keeps them. -/
example : ((do
    let o ← (RInterp.mk none none [] none none : RInterp ℚ).setDstGrid [2, 2] [[0, 0, 2, 2], [0, 2, 0, 2]]
    let o ← o.setSrcGrid [2, 2] [0, 0] [[0, 0, 1, 1], [0, 1, 0, 1]]
    lift' (o.computeWeights cramerGels stdSort .keptBuffer) : Call' (RInterp ℚ)).toOption.map fun o => o.weights) =
      some [(0, [(0, 1/4)])] := by
  decide +kernel

/-- The same from the theorem. -/
example : ((do
    let o ← (RInterp.mk none none [] none none : RInterp ℚ).setDstGrid [2, 2] [[0, 0, 2, 2], [0, 2, 0, 2]]
    let o ← o.setSrcGrid [2, 2] [0, 0] [[0, 0, 1, 1], [0, 1, 0, 1]]
    lift' (o.computeWeights cramerGels stdSort .keptBuffer) : Call' (RInterp ℚ)).map RInterp.toInterp) =
    lift' (setAndCompute cramerGels stdSort .keptBuffer (Interp.mk none none [] none none) (2, 2) [0, 0, 2, 2] [0, 2, 0, 2] (2, 2) (0, 0)
      [0, 0, 1, 1] [0, 1, 0, 1]) :=
  C105_weights_partial cramerGels stdSort .keptBuffer (RInterp.mk none none [] none none) (n0 := 2) (n1 := 2) (m0 := 2) (m1 := 2) (0, 0)
    rfl rfl rfl rfl rfl rfl rfl rfl (by decide) (by decide) (by decide) (by decide) (by decide)

/-- What `get` reports for it. -/
example : ∃ (o o' o0 : Interp ℚ), Conserve.new .lenient = .ok o ∧
    setAndCompute cramerGels stdSort .keptBuffer o (2, 2) [0, 0, 2, 2] [0, 2, 0, 2] (2, 2) (0, 0) [0, 0, 1, 1] [0, 1, 0, 1] = .ok o' ∧
    o'.reset .lenient = .ok o0 ∧ Reports .lenient o0 [(0, 0, 1/4)] o0 := by
  obtain ⟨o, ho⟩ : ∃ o : Interp ℚ, Conserve.new .lenient = .ok o := ⟨_, rfl⟩
  obtain ⟨o', h, hw⟩ : ∃ o', setAndCompute cramerGels stdSort .keptBuffer o (2, 2) [0, 0, 2, 2] [0, 2, 0, 2] (2, 2) (0, 0) [0, 0, 1, 1]
      [0, 1, 0, 1] = .ok o' ∧ o'.weights = [(0, [(0, 1/4)])] := by
    cases ho
    refine ⟨Interp.mk (some ⟨(2, 2), [0, 0, 0, 1, 1, 0, 1, 1]⟩) (some ⟨(2, 2), [0, 0, 0, 2, 2, 0, 2, 2]⟩) [(0, [(0, 1/4)])]
      none none, ?_, rfl⟩
    decide +kernel
  obtain ⟨o0, h1, -, h2⟩ := C105_get_partial cramerGels stdSort .keptBuffer o o' ho (2, 2) (2, 2) (0, 0) _ _ _ _ h (by decide) (by decide)
    (by rw [hw]; decide)
  rw [hw] at h2
  exact ⟨o, o', o0, ho, h, h1, h2⟩

/-- A grid of 0 × 0 nodes. -/
example : ∃ o' : RInterp ℚ, (RInterp.mk (some (RGrid.mk (2, 2) (1, 1) (1, 1) (2, 1) [0, 0, 0, 1, 1, 0, 1, 1] 4 1)) none [] none none :
      RInterp ℚ).setDstGrid [0, 0] [] = .ok o' ∧ o'.computeWeights cramerGels stdSort .keptBuffer = .error .outOfBounds := by
  obtain ⟨o', h1, h2⟩ := C105_empty_refuted cramerGels stdSort .keptBuffer (RInterp.mk (some (RGrid.mk (2, 2) (1, 1) (1, 1) (2, 1)
    [0, 0, 0, 1, 1, 0, 1, 1] 4 1)) none [] none none : RInterp ℚ) (n0 := 0) (n1 := 0) rfl (by decide) (by decide) (by decide) (by decide) []
  exact ⟨o', h1, h2 (by simp)⟩

/-- A destination cell and no source grid; a single flag. -/
example : (RInterp.mk none (some (RGrid.mk (2, 2) (1, 1) (1, 1) (2, 1) [0, 0, 0, 1, 1, 0, 1, 1] 4 1)) [] none none :
    RInterp ℚ).computeWeights cramerGels stdSort .keptBuffer = .error .uninit :=
  (C105_undefined cramerGels stdSort .keptBuffer _ []).2.2.2.2 _ rfl (by decide) rfl
example : (RInterp.mk none none [] none none : RInterp ℚ).setSrcGrid [2, 2] [0] [[0, 0, 1, 1], [0, 1, 0, 1]] =
    .error (.undefined .outOfBounds) :=
  (C105_undefined cramerGels stdSort .keptBuffer _ _).2.2.1 _ _ (by decide)

end Sg.Props
