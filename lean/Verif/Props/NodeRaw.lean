import Verif.Model.NodeInterpRaw
import Verif.Proof.FlowApply
import Verif.Props.FindPointRaw
import Verif.Props.ConserveRaw
import Verif.Props.NodeInterp
/-
Property C112: nodal interpolation with the integers as the code keeps them.
-/
namespace Sg.Props
open Sg Sg.LinearSolve Sg.Conserve Sg.FindPoint Sg.NodeInterp

section generic
set_option linter.unusedSectionVars false
variable {F : Type} [Zero F] [One F] [Add F] [Sub F] [Mul F] [Div F] [Neg F] [LT F] [DecidableLT F]
  [LE F] [DecidableLE F] [DecidableEq F] [NatCast F] [IntCast F] [FOps F]

/-- The object as one of the model without sizes. -/
def toNode (o : RNode F) : NodeInterp F :=
  { finder := asFinder 2 o.finder
    srcCellDims := fun j => match o.src with | none => 0 | some r => (if j = 0 then r.cellDims.1 else r.cellDims.2).toNat
    dstNumPoints := match o.dst with | none => 0 | some r => r.numPoints
    dstGrdCoords := match o.dst with | none => [] | some r => r.coords
    weights := o.weights, srcSet := o.src.isSome, dstSet := o.dst.isSome }

/-- The coordinates interleaved. -/
def interleave (N : Nat) (x y : List F) : List F := (List.range (2 * N)).map fun k => (if k % 2 = 0 then x else y).getD (k / 2) 0

/-- Loading a grid, for any counts whose product as `size_t` is small enough. -/
theorem load_points {D : List Int} {C : List (List F)} {x y : List F} {d0 d1 : Int} {N : Nat} (h0 : D[0]? = some d0)
    (h1 : D[1]? = some d1) (hx : C[0]? = some x ∧ N ≤ x.length) (hy : C[1]? = some y ∧ N ≤ y.length)
    (r0 : -2147483647 ≤ d0 ∧ d0 ≤ 2147483647) (r1 : -2147483647 ≤ d1 ∧ d1 ≤ 2147483647)
    (hN : smul (smul 1 (toSize d0)) (toSize d1) = N) (hs : 2 * N ≤ 1152921504606846975) :
    ∃ r, loadGrid D C = .ok r ∧ r.numPoints = N ∧ r.cellDims = (d0 - 1, d1 - 1) ∧ r.coords = interleave N x y := by
  have i0 : isub d0 1 = .ok (d0 - 1) := by
    have : inI32 (d0 - 1) := by unfold inI32; omega
    simp only [isub, chk, if_pos this]
  have i1 : isub d1 1 = .ok (d1 - 1) := by
    have : inI32 (d1 - 1) := by unfold inI32; omega
    simp only [isub, chk, if_pos this]
  have m0 : imul 1 (d1 - 1) = .ok (d1 - 1) := by
    have : inI32 (d1 - 1) := by unfold inI32; omega
    simp only [imul, chk, Int.one_mul, if_pos this]
  have m1 : imul 1 d1 = .ok d1 := by
    have : inI32 d1 := by unfold inI32; omega
    simp only [imul, chk, Int.one_mul, if_pos this]
  have e3 : smul 2 N = 2 * N := by unfold smul; rw [Nat.mod_eq_of_lt (by omega)]
  have er : resize ([] : List F) (2 * N) 0 = .ok (List.replicate (2 * N) 0) := by rw [resize_ok hs]; simp [rsz]
  have okb : ∀ {ε α β : Type} (a : α) (f : α → Except ε β), (Except.ok a >>= f) = f a := fun _ _ => rfl
  have okl : ∀ {α : Type} (a : α), lift' (.ok a : Cxx α) = .ok a := fun _ => rfl
  obtain ⟨v1, v2, e1, e2, l2, hv⟩ := FlowInterp.fill_ok' N x y hx.2 hy.2
  refine ⟨{ nodeDims := (d0, d1), cellDims := (d0 - 1, d1 - 1), cellDimProd := (d1 - 1, 1), nodeDimProd := (d1, 1), coords := v2,
            numPoints := N, numCells := smul (smul 1 (toSize (d0 - 1))) (toSize (d1 - 1)) }, ?_, rfl, rfl, ?_⟩
  · unfold loadGrid
    simp only [vget_eq_ok.mpr h0, vget_eq_ok.mpr h1, vget_eq_ok.mpr hx.1, vget_eq_ok.mpr hy.1, i0, i1, m0, m1, okb, okl, hN, e3, er,
      e1, e2]
    rfl
  · apply List.ext_getElem?
    intro k
    by_cases hk : k < 2 * N
    · unfold interleave
      rw [List.getElem?_map, List.getElem?_range hk]
      have := hv (k / 2) (by omega)
      rcases Nat.mod_two_eq_zero_or_one k with h | h
      · rw [show k / 2 * 2 = k by omega] at this
        simp only [Option.map_some, h, if_true]
        exact this.1
      · rw [show k / 2 * 2 + 1 = k by omega] at this
        simp only [Option.map_some, h, one_ne_zero, if_false]
        exact this.2
    · rw [List.getElem?_eq_none (by show v2.length ≤ k; omega), List.getElem?_eq_none (by simp [interleave]; omega)]

theorem smul_nat {a b : Nat} (h : a * b < 18446744073709551616) (hb : 1 ≤ b) : smul (smul 1 a) b = a * b := by
  have : a ≤ a * b := Nat.le_mul_of_pos_right _ hb
  unfold smul
  rw [Nat.one_mul, Nat.mod_eq_of_lt (show a < 18446744073709551616 by omega), Nat.mod_eq_of_lt h]

/-- The memory of the caller for a destination grid: two counts and two arrays with at least as many numbers as the grid has nodes. -/
structure PassedDst (dims : Fin 2 → Nat) (coords : Fin 2 → Nat → F) (D : List Int) (C : List (List F)) : Prop where
  counts : ∀ i : Fin 2, D[(i : Nat)]? = some (dims i : Int)
  arrays : ∀ i : Fin 2, ∃ a, C[(i : Nat)]? = some a ∧ ∀ j < dims 0 * dims 1, a[j]? = some (coords i j)

theorem length_of_reads {a : List F} {N : Nat} {c : Nat → F} (h : ∀ j < N, a[j]? = some (c j)) : N ≤ a.length := by
  rcases Nat.eq_zero_or_pos N with rfl | hN
  · exact Nat.zero_le _
  · have := h (N - 1) (by omega)
    by_contra hlt
    rw [List.getElem?_eq_none (by omega)] at this
    cases this

theorem interleave_eq {N : Nat} {a b : List F} {coords : Fin 2 → Nat → F} (ha : ∀ j < N, a[j]? = some (coords 0 j))
    (hb : ∀ j < N, b[j]? = some (coords 1 j)) :
    interleave N a b = (List.range (2 * N)).map fun k => coords ⟨k % 2, Nat.mod_lt _ (by decide)⟩ (k / 2) := by
  unfold interleave
  apply List.map_congr_left
  intro k hk
  have hk := List.mem_range.mp hk
  rcases Nat.mod_two_eq_zero_or_one k with h | h
  · have e : (⟨k % 2, Nat.mod_lt _ (by decide)⟩ : Fin 2) = 0 := by ext; exact h
    rw [e, h, if_pos rfl, List.getD_eq_getElem?_getD, ha _ (by omega)]; rfl
  · have e : (⟨k % 2, Nat.mod_lt _ (by decide)⟩ : Fin 2) = 1 := by ext; exact h
    rw [e, h, if_neg (by decide), List.getD_eq_getElem?_getD, hb _ (by omega)]; rfl

/-- **C112.** A destination grid with at least one node along each axis, counts in the range of `int` and fewer than `2^59` nodes in
all is taken over from any arrays that are long enough; the object is then the one of the model without sizes. -/
theorem C112_dst_partial (o : RNode F) {dims : Fin 2 → Nat} {coords : Fin 2 → Nat → F} {D : List Int} {C : List (List F)}
    (hp : PassedDst dims coords D C) (h1 : ∀ i, 1 ≤ dims i) (hi : ∀ i, dims i ≤ 2147483647)
    (hs : 2 * (dims 0 * dims 1) ≤ 1152921504606846975) :
    ∃ o', o.setDstGrid D C = .ok o' ∧ o'.finder = o.finder ∧ o'.src = o.src ∧ toNode o' = (toNode o).setDstGrid dims coords := by
  obtain ⟨a, ha, ha'⟩ := hp.arrays 0
  obtain ⟨b, hb, hb'⟩ := hp.arrays 1
  have hN : smul (smul 1 (toSize (dims 0 : Int))) (toSize (dims 1 : Int)) = dims 0 * dims 1 := by
    rw [toSize_nat (by have := hi 0; omega), toSize_nat (by have := hi 1; omega), smul_nat (by omega) (h1 1)]
  obtain ⟨r, er, rn, -, rc⟩ := load_points (hp.counts 0) (hp.counts 1) ⟨ha, length_of_reads ha'⟩ ⟨hb, length_of_reads hb'⟩
    ⟨by omega, by have := hi 0; omega⟩ ⟨by omega, by have := hi 1; omega⟩ hN hs
  refine ⟨{ o with dst := some r }, ?_, rfl, rfl, ?_⟩
  · unfold RNode.setDstGrid
    rw [er]; rfl
  · unfold toNode NodeInterp.setDstGrid
    simp only [rn, rc, interleave_eq ha' hb', Option.isSome_some]

/-- **C112.** A source grid with at least one node along each axis and at most `INT_MAX` nodes is taken over, whatever grids the object
had before. -/
theorem C112_src_partial (hcast : ∀ k : Nat, ((k : Int) : F) = (k : F)) {m : Nat} (o : RNode F) (hs : Sized m o.finder)
    {dims : Fin 2 → Nat} {per : Fin 2 → Int} {coords : Fin 2 → Nat → F} {D P : List Int} {C : List (List F)}
    (hp : Passed dims per coords D P C) (h1 : ∀ i, 1 ≤ dims i) (htot : dims 0 * dims 1 ≤ 2147483647) :
    ∃ o', o.setSrcGrid D P C = .ok o' ∧ Sized 2 o'.finder ∧ o'.dst = o.dst ∧
      (∃ r, o'.src = some r ∧ r.cellDims = ((dims 0 : Int) - 1, (dims 1 : Int) - 1)) ∧
      toNode o' = (toNode o).setSrcGrid dims per coords := by
  have hprod : ∏ i, dims i = dims 0 * dims 1 := Fin.prod_univ_two dims
  obtain ⟨f, ef, sf, eqf, -⟩ := C104_setGrid hcast hs (n := 2) (by decide) (by decide) hp h1 (by rw [hprod]; exact htot)
  have arr := hp.arrays
  rw [hprod] at arr
  obtain ⟨a, ha, ha'⟩ := arr 0
  obtain ⟨b, hb, hb'⟩ := arr 1
  have b0 : dims 0 ≤ 2147483647 := (Nat.le_mul_of_pos_right _ (h1 1)).trans htot
  have b1 : dims 1 ≤ 2147483647 := (Nat.le_mul_of_pos_left _ (h1 0)).trans htot
  have hN : smul (smul 1 (toSize (dims 0 : Int))) (toSize (dims 1 : Int)) = dims 0 * dims 1 := by
    rw [toSize_nat (by omega), toSize_nat (by omega), smul_nat (by omega) (h1 1)]
  obtain ⟨r, er, rn, rd, -⟩ := load_points (hp.counts 0) (hp.counts 1) ⟨ha, length_of_reads ha'⟩ ⟨hb, length_of_reads hb'⟩
    ⟨by omega, by omega⟩ ⟨by omega, by omega⟩ hN (by omega)
  refine ⟨{ o with finder := f, src := some r }, ?_, sf, rfl, ⟨r, rfl, rd⟩, ?_⟩
  · unfold RNode.setSrcGrid
    rw [show ((2 : Nat) : Int) = 2 from rfl] at ef
    rw [ef, er]; rfl
  · unfold toNode NodeInterp.setSrcGrid
    simp only [eqf, rd, Option.isSome_some]
    congr 1
    funext j
    fin_cases j
    · simp
    · simp

theorem sideIndicesR_eq (c : Fin 2 → Nat) (side : List Int) :
    sideIndicesR (F := F) ((c 0 : Int), (c 1 : Int)) side = sideIndices c side := by
  unfold sideIndicesR sideIndices
  congr 1
  funext i
  fin_cases i <;> rfl

theorem retryR_eq (g : Gels F) (c : Fin 2 → Nat) (t : Fin 2 → F) : ∀ (k : Nat) (sit : SideIterator.SideIt) (f : Finder F 2) (d : Fin 2 → F),
    retryR g ((c 0 : Int), (c 1 : Int)) t k sit f d = retry g c t k sit f d
  | 0, _, _, _ => rfl
  | k + 1, sit, f, d => by
    unfold retryR retry
    simp only [sideIndicesR_eq, retryR_eq g c t k]

theorem nodeR_eq (g : Gels F) {src dst : RGrid F} {o : NodeInterp F} {k : Nat} (hk : k < 4611686018427387904)
    (hc : src.cellDims = ((o.srcCellDims 0 : Int), (o.srcCellDims 1 : Int))) (hd : dst.coords = o.dstGrdCoords) (s : LoopState F) :
    nodeR g src dst k s = o.node g k s := by
  have hi : ∀ j : Fin 2, sadd (smul k 2) (j : Nat) = k * 2 + j := by
    intro j
    unfold sadd smul
    rw [Nat.mod_eq_of_lt (show k * 2 < 18446744073709551616 by omega), Nat.mod_eq_of_lt (by omega)]
  unfold nodeR NodeInterp.node NodeInterp.target
  simp only [hi, hc, hd, retryR_eq]

/-- **C112.** Setting both grids and computing the weights through the interface does what the model without sizes does. -/
theorem C112_weights_partial (g : Gels F) (hcast : ∀ k : Nat, ((k : Int) : F) = (k : F)) {m : Nat} (o : RNode F) (hs : Sized m o.finder)
    {dims dims' : Fin 2 → Nat} {per : Fin 2 → Int} {coords coords' : Fin 2 → Nat → F} {D D' P : List Int} {C C' : List (List F)}
    (hp : PassedDst dims coords D C) (hp' : Passed dims' per coords' D' P C') (h1 : ∀ i, 1 ≤ dims i) (h1' : ∀ i, 1 ≤ dims' i)
    (hi : ∀ i, dims i ≤ 2147483647) (hsz : 2 * (dims 0 * dims 1) ≤ 1152921504606846975) (htot : dims' 0 * dims' 1 ≤ 2147483647) :
    (do
      let o ← o.setDstGrid D C
      let o ← o.setSrcGrid D' P C'
      lift' (o.computeWeights g) : Call' (Finder F 2 × NodeInterp.Table F)) =
    lift' ((((toNode o).setDstGrid dims coords).setSrcGrid dims' per coords').computeWeights g |>.map fun n => (n.finder, n.weights)) := by
  obtain ⟨o1, e1, f1, s1, t1⟩ := C112_dst_partial o hp h1 hi hsz
  obtain ⟨o2, e2, -, d2, ⟨r, hr, hrc⟩, t2⟩ := C112_src_partial hcast o1 (f1 ▸ hs) hp' h1' htot
  rw [e1]
  show (do
      let o ← o1.setSrcGrid D' P C'
      lift' (o.computeWeights g) : Call' (Finder F 2 × NodeInterp.Table F)) = _
  rw [e2]
  show lift' (o2.computeWeights g) = _
  rw [← t1, ← t2]
  congr 1
  obtain ⟨rd, hrd⟩ : ∃ rd, o2.dst = some rd := by
    have := congrArg NodeInterp.dstSet t1
    rw [d2]
    exact Option.isSome_iff_exists.mp this
  have hnum : rd.numPoints = dims 0 * dims 1 := by
    have := congrArg NodeInterp.dstNumPoints t1
    simp only [toNode, ← d2, hrd, NodeInterp.setDstGrid] at this
    exact this
  have hcd : r.cellDims = (((toNode o2).srcCellDims 0 : Int), ((toNode o2).srcCellDims 1 : Int)) := by
    have a := h1' 0
    have b := h1' 1
    rw [hrc]
    simp only [toNode, hr, hrc]
    ext
    · simp; omega
    · simp; omega
  have hcoords : rd.coords = (toNode o2).dstGrdCoords := by simp only [toNode, hrd]
  have hstart : startIndicesR (F := F) r.cellDims = startIndices (toNode o2).srcCellDims := by
    funext i
    rw [hcd]
    unfold startIndicesR startIndices
    simp only [hcast]
  have hn : (toNode o2).dstNumPoints = rd.numPoints := by simp only [toNode, hrd]
  unfold RNode.computeWeights NodeInterp.computeWeights NodeInterp.before
  rw [hr, hrd]
  have hset : ((toNode o2).srcSet && (toNode o2).dstSet) = true := by simp [toNode, hr, hrd]
  rw [if_pos hset, hn]
  have hloop : forN rd.numPoints ({ finder := plane o2.finder, dIndices := startIndicesR r.cellDims, weights := [] } : LoopState F)
      (nodeR g r rd) = forN rd.numPoints { finder := (toNode o2).finder, dIndices := startIndices (toNode o2).srcCellDims, weights := [] }
        fun i s => (toNode o2).node g i s := by
    rw [hstart]
    apply forN_congr
    intro k s hk
    exact nodeR_eq g (by omega) hcd hcoords s
  simp only [hloop]
  cases forN rd.numPoints { finder := (toNode o2).finder, dIndices := startIndices (toNode o2).srcCellDims, weights := [] }
        fun i s => (toNode o2).node g i s with
  | error e => rfl
  | ok s => rfl

/-- **C112.** A source grid with more than `INT_MAX` nodes is undefined behaviour, though a destination grid of that size is not. -/
theorem C112_src_too_many (o : RNode F) {dims : Fin 2 → Nat} {D P : List Int} (C : List (List F))
    (hD : ∀ i : Fin 2, D[(i : Nat)]? = some (dims i : Int)) (hP : 2 ≤ P.length) (h1 : ∀ i, 1 ≤ dims i)
    (htot : 2147483647 < dims 0 * dims 1) : o.setSrcGrid D P C = .error (.undefined .signedOverflow) := by
  have := C104_too_many o.finder (n := 2) (by decide) (by decide) C hD hP h1 (by rw [Fin.prod_univ_two]; exact htot)
  rw [show ((2 : Nat) : Int) = 2 from rfl] at this
  unfold RNode.setSrcGrid
  rw [this]; rfl

theorem copy_short {N c : Nat} {x : List F} (hx : x.length < N) (hc : c < 2) : ∀ (k start : Nat) (v : List F), start + k = N →
    start ≤ x.length → v.length = 2 * N →
    forFrom start k v (fun i v => do
      let a ← vget x i
      vset v (i * 2 + c) a) = .error .outOfBounds
  | 0, start, v, hk, hle, hv => by omega
  | k + 1, start, v, hk, hle, hv => by
    unfold forFrom
    beta_reduce
    by_cases h : start < x.length
    · have e : (do
          let a ← vget x start
          vset v (start * 2 + c) a : Cxx (List F)) = .ok (v.set (start * 2 + c) x[start]) := by
        rw [vget_ok h]
        exact vset_ok (by omega)
      rw [e]
      exact copy_short hx hc k (start + 1) _ (by omega) (by omega) (by simpa using hv)
    · have e : vget x start = .error .outOfBounds := by
        unfold vget
        rw [List.getElem?_eq_none (by omega)]
      rw [e]
      rfl

/-- **C112.** A destination array with fewer numbers than the grid has nodes is read past its end. -/
theorem C112_dst_short (o : RNode F) {n0 n1 : Nat} {x y : List F} (p0 : 1 ≤ n0) (p1 : 1 ≤ n1)
    (s0 : n0 ≤ 2147483647) (s1 : n1 ≤ 2147483647) (hs : 2 * (n0 * n1) ≤ 1152921504606846975)
    (hxy : x.length < n0 * n1 ∨ y.length < n0 * n1) :
    o.setDstGrid [(n0 : Int), (n1 : Int)] [x, y] = .error (.undefined .outOfBounds) := by
  have hmk : makeGrid (n0, n1) x y = .error .outOfBounds := by
    unfold makeGrid
    simp only [Nat.one_mul]
    by_cases hx : x.length < n0 * n1
    · have := copy_short (c := 0) hx (by decide) (n0 * n1) 0 (List.replicate (2 * (n0 * n1)) (0 : F)) (by omega) (by omega) (by simp)
      unfold forN
      rw [this]
      rfl
    · have hy : y.length < n0 * n1 := hxy.resolve_left hx
      obtain ⟨v1, e1, l1⟩ := forN_inv (fun _ v => v.length = 2 * (n0 * n1))
        (fun i v => do
          let c ← vget x i
          vset v (i * 2 + 0) c) (n0 * n1) (List.replicate (2 * (n0 * n1)) (0 : F)) (by simp) (by
          intro i v hi hl
          refine ⟨v.set (i * 2 + 0) x[i], ?_, by simpa using hl⟩
          rw [vget_ok (show i < x.length by omega)]
          exact vset_ok (by omega))
      rw [e1]
      have := copy_short (c := 1) hy (by decide) (n0 * n1) 0 v1 (by omega) (by omega) l1
      show (do
        let v ← forN (n0 * n1) v1 _
        return ({ nodeDims := (n0, n1), coords := v } : Grid F) : Cxx (Grid F)) = _
      unfold forN
      rw [this]
      rfl
  rcases loadGrid_eq (D := [(n0 : Int), (n1 : Int)]) (C := [x, y]) rfl rfl rfl rfl p0 p1 s0 s1 hs with ⟨gr, r, e, -⟩ | ⟨e, h, h'⟩
  · rw [hmk] at e; cases e
  · rw [hmk] at h
    cases h
    unfold RNode.setDstGrid
    rw [h']; rfl

theorem smul_toSize (x y : Int) : smul (toSize x) (toSize y) = toSize (x * y) := by
  unfold smul toSize
  have hx := Int.emod_nonneg x (show (18446744073709551616 : Int) ≠ 0 by decide)
  have hy := Int.emod_nonneg y (show (18446744073709551616 : Int) ≠ 0 by decide)
  have hxy := Int.emod_nonneg (x * y) (show (18446744073709551616 : Int) ≠ 0 by decide)
  apply Int.ofNat_inj.mp
  push_cast
  rw [Int.toNat_of_nonneg hx, Int.toNat_of_nonneg hy, Int.toNat_of_nonneg hxy, ← Int.mul_emod]

theorem smul_one_toSize (x : Int) : smul 1 (toSize x) = toSize x := by
  have := smul_toSize 1 x
  rwa [Int.one_mul] at this

theorem mul_bound {a b : Nat} (sa : a ≤ 2147483647) (sb : b ≤ 2147483647) : a * b ≤ 4611686014132420609 :=
  Nat.mul_le_mul sa sb

/-- Counts whose product is negative. -/
theorem load_negative {d0 d1 : Int} {m : Nat} (r0 : -2147483647 ≤ d0 ∧ d0 ≤ 2147483647) (r1 : -2147483647 ≤ d1 ∧ d1 ≤ 2147483647)
    (hm : d0 * d1 = -(m : Int)) (h1 : 1 ≤ m) (h2 : m ≤ 4611686014132420609) (C : List (List F)) :
    loadGrid [d0, d1] C = .error .lengthError := by
  have i0 : isub d0 1 = .ok (d0 - 1) := by
    have : inI32 (d0 - 1) := by unfold inI32; omega
    simp only [isub, chk, if_pos this]
  have i1 : isub d1 1 = .ok (d1 - 1) := by
    have : inI32 (d1 - 1) := by unfold inI32; omega
    simp only [isub, chk, if_pos this]
  have m0 : imul 1 (d1 - 1) = .ok (d1 - 1) := by
    have : inI32 (d1 - 1) := by unfold inI32; omega
    simp only [imul, chk, Int.one_mul, if_pos this]
  have m1 : imul 1 d1 = .ok d1 := by
    have : inI32 d1 := by unfold inI32; omega
    simp only [imul, chk, Int.one_mul, if_pos this]
  have okb : ∀ {ε α β : Type} (a : α) (f : α → Except ε β), (Except.ok a >>= f) = f a := fun _ _ => rfl
  have okl : ∀ {α : Type} (a : α), lift' (.ok a : Cxx α) = .ok a := fun _ => rfl
  have e : smul 2 (smul (smul 1 (toSize d0)) (toSize d1)) = toSize (2 * -(m : Int)) := by
    rw [smul_one_toSize, smul_toSize, hm]
    exact smul_toSize 2 _
  have er : resize ([] : List F) (toSize (2 * -(m : Int))) 0 = .error .lengthError := by
    unfold resize
    rw [if_neg]
    unfold toSize
    omega
  unfold loadGrid
  simp only [vget_eq_ok.mpr (show [d0, d1][0]? = some d0 from rfl), vget_eq_ok.mpr (show [d0, d1][1]? = some d1 from rfl), i0, i1, m0, m1,
    okb, okl, e, er]
  rfl

/-- **C112.** Exactly one negative count makes `setDstGrid` throw `std::length_error`, before any array is read. -/
theorem C112_dst_negative (o : RNode F) {a b : Nat} (ha : 1 ≤ a) (hb : 1 ≤ b) (sa : a ≤ 2147483647) (sb : b ≤ 2147483647)
    (C : List (List F)) : o.setDstGrid [-(a : Int), (b : Int)] C = .error .lengthError ∧
      o.setDstGrid [(a : Int), -(b : Int)] C = .error .lengthError := by
  have hab : 1 ≤ a * b := Nat.mul_le_mul ha hb
  constructor
  · unfold RNode.setDstGrid
    rw [load_negative (m := a * b) ⟨by omega, by omega⟩ ⟨by omega, by omega⟩ (by push_cast; ring) hab (mul_bound sa sb)]
    rfl
  · unfold RNode.setDstGrid
    rw [load_negative (m := a * b) ⟨by omega, by omega⟩ ⟨by omega, by omega⟩ (by push_cast; ring) hab (mul_bound sa sb)]
    rfl

/-- **C112.** Two negative counts are accepted: the destination grid is the one with the signs dropped. -/
theorem C112_dst_both_negative_refuted (o : RNode F) {dims : Fin 2 → Nat} {coords : Fin 2 → Nat → F} {D : List Int} {C : List (List F)}
    (hp : PassedDst dims coords D C) (hi : ∀ i, dims i ≤ 2147483647)
    (hs : 2 * (dims 0 * dims 1) ≤ 1152921504606846975) :
    ∃ o', o.setDstGrid [-(dims 0 : Int), -(dims 1 : Int)] C = .ok o' ∧ toNode o' = (toNode o).setDstGrid dims coords := by
  obtain ⟨a, ha, ha'⟩ := hp.arrays 0
  obtain ⟨b, hb, hb'⟩ := hp.arrays 1
  have hN : smul (smul 1 (toSize (-(dims 0 : Int)))) (toSize (-(dims 1 : Int))) = dims 0 * dims 1 := by
    rw [smul_one_toSize, smul_toSize, show -(dims 0 : Int) * -(dims 1 : Int) = ((dims 0 * dims 1 : Nat) : Int) by push_cast; ring,
      toSize_nat (by omega)]
  obtain ⟨r, er, rn, -, rc⟩ := load_points (D := [-(dims 0 : Int), -(dims 1 : Int)]) rfl rfl ⟨ha, length_of_reads ha'⟩
    ⟨hb, length_of_reads hb'⟩ ⟨by have := hi 0; omega, by omega⟩ ⟨by have := hi 1; omega, by omega⟩ hN hs
  refine ⟨{ o with dst := some r }, ?_, ?_⟩
  · unfold RNode.setDstGrid
    rw [er]; rfl
  · unfold toNode NodeInterp.setDstGrid
    simp only [rn, rc, interleave_eq ha' hb', Option.isSome_some]

theorem load_empty {n0 n1 : Nat} (hz : n0 * n1 = 0) (s0 : n0 ≤ 2147483647) (s1 : n1 ≤ 2147483647) (C : List (List F)) :
    ∃ r, loadGrid [(n0 : Int), (n1 : Int)] C = .ok r ∧ r.numPoints = 0 := by
  have i0 : isub (n0 : Int) 1 = .ok ((n0 : Int) - 1) := by
    have : inI32 ((n0 : Int) - 1) := by unfold inI32; omega
    simp only [isub, chk, if_pos this]
  have i1 : isub (n1 : Int) 1 = .ok ((n1 : Int) - 1) := by
    have : inI32 ((n1 : Int) - 1) := by unfold inI32; omega
    simp only [isub, chk, if_pos this]
  have m0 : imul 1 ((n1 : Int) - 1) = .ok ((n1 : Int) - 1) := by
    have : inI32 ((n1 : Int) - 1) := by unfold inI32; omega
    simp only [imul, chk, Int.one_mul, if_pos this]
  have m1 : imul 1 (n1 : Int) = .ok (n1 : Int) := by
    have : inI32 (n1 : Int) := by unfold inI32; omega
    simp only [imul, chk, Int.one_mul, if_pos this]
  have e1 : smul (smul 1 (toSize (n0 : Int))) (toSize (n1 : Int)) = 0 := by
    rw [smul_one_toSize, smul_toSize, ← Nat.cast_mul, hz]
    rfl
  have e3 : smul 2 0 = 0 := rfl
  have er : resize ([] : List F) 0 0 = .ok [] := rfl
  have okb : ∀ {ε α β : Type} (a : α) (f : α → Except ε β), (Except.ok a >>= f) = f a := fun _ _ => rfl
  have okl : ∀ {α : Type} (a : α), lift' (.ok a : Cxx α) = .ok a := fun _ => rfl
  have f0 : ∀ {σ : Type} (s : σ) (f : Nat → σ → Cxx σ), forN 0 s f = .ok s := fun _ _ => rfl
  unfold loadGrid
  simp only [vget_eq_ok.mpr (show [(n0 : Int), (n1 : Int)][0]? = some (n0 : Int) from rfl),
    vget_eq_ok.mpr (show [(n0 : Int), (n1 : Int)][1]? = some (n1 : Int) from rfl), i0, i1, m0, m1, okb, okl, e1, e3, er, f0]
  exact ⟨_, rfl, rfl⟩

/-- **C112.** Both grids have to be set before weights are computed: after the calls that set one of them only, or none, the code reads members that were never set. -/
theorem C112_both_grids (g : Gels F) (nitermax : Int) (tolpos : F) (D P : List Int) (C : List (List F)) :
    (RNode.new nitermax tolpos).computeWeights g = .error .uninit ∧
    (∀ o, (RNode.new nitermax tolpos : RNode F).setDstGrid D C = .ok o → o.computeWeights g = .error .uninit) ∧
    ∀ o, (RNode.new nitermax tolpos : RNode F).setSrcGrid D P C = .ok o → o.computeWeights g = .error .uninit := by
  refine ⟨rfl, fun o h => ?_, fun o h => ?_⟩
  · unfold RNode.setDstGrid at h
    cases hl : loadGrid D C with
    | error e => rw [hl] at h; cases h
    | ok r =>
      rw [hl] at h
      obtain rfl := Except.ok.inj h
      rfl
  · unfold RNode.setSrcGrid at h
    rcases hf : (RNode.new nitermax tolpos : RNode F).finder.setGrid 2 D P C with e | f
    · rw [hf] at h; cases h
    · rw [hf] at h
      rcases hl : loadGrid D C with e | r
      · rw [hl] at h; cases h
      · rw [hl] at h
        obtain rfl := Except.ok.inj h
        rfl

/-- **C112.** A destination grid without nodes is accepted without a look at the arrays, and has an empty table. -/
theorem C112_dst_empty (g : Gels F) (o : RNode F) {n0 n1 : Nat} (hz : n0 * n1 = 0) (s0 : n0 ≤ 2147483647) (s1 : n1 ≤ 2147483647)
    (C : List (List F)) : ∃ o', o.setDstGrid [(n0 : Int), (n1 : Int)] C = .ok o' ∧
      (o.src ≠ none → ∃ f, o'.computeWeights g = .ok (f, [])) := by
  obtain ⟨r, er, hr⟩ := load_empty hz s0 s1 C
  refine ⟨{ o with dst := some r }, ?_, ?_⟩
  · unfold RNode.setDstGrid
    rw [er]; rfl
  · intro h
    obtain ⟨s, hs⟩ := Option.ne_none_iff_exists'.mp h
    unfold RNode.computeWeights
    simp only [hs, hr]
    exact ⟨_, rfl⟩

theorem setGrid_empty {n0 n1 : Nat} (hz : n0 * n1 = 0) (s0 : n0 ≤ 2147483647) (s1 : n1 ≤ 2147483647) (nitermax : Int) (tolpos : F)
    (P : List Int) (hP : 2 ≤ P.length) (C : List (List F)) :
    ∃ f, (Raw.new nitermax tolpos : Raw F).setGrid 2 [(n0 : Int), (n1 : Int)] P C = .ok f ∧ f.xmins = [FOps.big, FOps.big] ∧
      ∃ s, f.slvr = some s := by
  have hD : ∀ i : Fin 2, [(n0 : Int), (n1 : Int)][(i : Nat)]? = some ((![(n0 : Int), (n1 : Int)]) i) := by
    intro i; fin_cases i <;> rfl
  obtain ⟨w, ew, -⟩ := setPeriodicity_ok (F := F) hD (per := fun i => P[(i : Nat)]'(by omega))
    (fun i => List.getElem?_eq_getElem (by omega)) (rsz_length (Raw.new nitermax tolpos : Raw F).indexPeriodicity 2 0)
  obtain ⟨pr, e1⟩ := setProducts_defined (n := 2) (D := [(n0 : Int), (n1 : Int)]) (by decide) (by simp)
    (rsz_length (Raw.new nitermax tolpos : Raw F).prodDims 2 0) (rsz_length (Raw.new nitermax tolpos : Raw F).nodeProdDims 2 0)
  obtain ⟨ds, e2⟩ := setDims_int (n := 2) (D := [(n0 : Int), (n1 : Int)]) (by simp) (by
      intro k hk
      have hz' : (n0 : Int) * (n1 : Int) = 0 := by exact_mod_cast hz
      rcases (show k = 0 ∨ k = 1 ∨ k = 2 by omega) with rfl | rfl | rfl
      · simp [inI32]
      · simp [inI32]; omega
      · simp [inI32, hz'])
    (rsz_length (Raw.new nitermax tolpos : Raw F).dims 2 0)
  have hp : ([(n0 : Int), (n1 : Int)].take 2).prod = 0 := by
    have hz' : (n0 : Int) * (n1 : Int) = 0 := by exact_mod_cast hz
    simpa using hz'
  rw [hp] at e2
  have er := resizeAll_ok (Raw.new nitermax tolpos : Raw F) (k := 2) (by decide)
  rw [show ((2 : Nat) : Int) = 2 from rfl] at er
  unfold Raw.setGrid
  rw [if_neg (by decide)]
  simp only [show (2 : Int).toNat = 2 from rfl, er, ew, e1, e2, lift', bind, Except.bind, pure, Except.pure]
  unfold Raw.setComponents Raw.setComponents Raw.setComponents Raw.setComponent
  exact ⟨_, rfl, rfl, _, rfl⟩

/-- **C112.** A source grid without nodes is accepted too; then every destination node below the largest number is outside the domain and
the table is empty. -/
theorem C112_src_empty (g : Gels F) (nitermax : Int) (tolpos : F) {n0 n1 : Nat} (hz : n0 * n1 = 0) (s0 : n0 ≤ 2147483647)
    (s1 : n1 ≤ 2147483647) (P : List Int) (hP : 2 ≤ P.length) (C C' : List (List F)) {dims : Fin 2 → Nat} {coords : Fin 2 → Nat → F}
    {D : List Int} (hp : PassedDst dims coords D C') (h1 : ∀ i, 1 ≤ dims i) (hi : ∀ i, dims i ≤ 2147483647)
    (hs : 2 * (dims 0 * dims 1) ≤ 1152921504606846975)
    (hbig : ∀ k < dims 0 * dims 1, ¬ FOps.big - FOps.eps100 ≤ coords 0 k) :
    ∃ o o' f, (RNode.new nitermax tolpos : RNode F).setSrcGrid [(n0 : Int), (n1 : Int)] P C = .ok o ∧ o.setDstGrid D C' = .ok o' ∧
      o'.computeWeights g = .ok (f, []) := by
  obtain ⟨f, ef, hx, sl, hsl⟩ := setGrid_empty hz s0 s1 nitermax tolpos P hP C
  obtain ⟨r, er, -⟩ := load_empty hz s0 s1 C
  have e1 : (RNode.new nitermax tolpos : RNode F).setSrcGrid [(n0 : Int), (n1 : Int)] P C =
      .ok { finder := f, src := some r, dst := none, weights := [] } := by
    unfold RNode.setSrcGrid RNode.new
    simp only [ef, er, bind, Except.bind, pure, Except.pure]
  obtain ⟨o', e2, hf, hsrc, ht⟩ := C112_dst_partial { finder := f, src := some r, dst := none, weights := [] } hp h1 hi hs
  obtain ⟨rd, hrd⟩ : ∃ rd, o'.dst = some rd := Option.isSome_iff_exists.mp (congrArg NodeInterp.dstSet ht)
  have hnum : rd.numPoints = dims 0 * dims 1 := by
    have := congrArg NodeInterp.dstNumPoints ht
    simp only [toNode, hrd, NodeInterp.setDstGrid] at this
    exact this
  have hco : rd.coords = (List.range (2 * (dims 0 * dims 1))).map fun k => coords ⟨k % 2, Nat.mod_lt _ (by decide)⟩ (k / 2) := by
    have := congrArg NodeInterp.dstGrdCoords ht
    simp only [toNode, hrd, NodeInterp.setDstGrid] at this
    exact this
  have hbounds : (plane o'.finder).bounds =
      some (fun i : Fin 2 => f.xmins.getD i FOps.big, fun i : Fin 2 => f.xmaxs.getD i (-FOps.big)) := by
    rw [hf]
    unfold plane
    have : f.xmins ≠ [] := by rw [hx]; simp
    exact if_neg this
  obtain ⟨st, est, -, hw⟩ := forN_inv (fun _ (s : LoopState F) => ((∃ b, s.finder.bounds = some b ∧ b.1 0 = FOps.big) ∧ ∃ sl, s.finder.slvr = some sl) ∧
      s.weights = []) (nodeR g r rd) rd.numPoints
    { finder := plane o'.finder, dIndices := startIndicesR r.cellDims, weights := [] }
    ⟨⟨⟨_, hbounds, by show f.xmins.getD 0 _ = _; rw [hx]; rfl⟩, sl, by rw [hf]; exact hsl⟩, rfl⟩ (by
    rintro k s hk ⟨⟨⟨b, hb, hb0⟩, sl, hsl⟩, hw⟩
    rw [hnum] at hk
    have hrow : ∀ j : Fin 2, vget rd.coords (sadd (smul k 2) j) = .ok (coords j k) := by
      intro j
      have : sadd (smul k 2) (j : Nat) = k * 2 + j := by
        unfold sadd smul
        rw [Nat.mod_eq_of_lt (show k * 2 < 18446744073709551616 by omega), Nat.mod_eq_of_lt (by omega)]
      rw [this, hco]
      apply vget_eq_ok.mpr
      rw [List.getElem?_map, List.getElem?_range (by omega)]
      have hm : (⟨(k * 2 + j) % 2, Nat.mod_lt _ (by decide)⟩ : Fin 2) = j := by ext; show (k * 2 + (j : Nat)) % 2 = j; omega
      have hd : (k * 2 + (j : Nat)) / 2 = k := by omega
      simp only [Option.map_some, hm, hd]
    have hta : (forAxes fun j : Fin 2 => vget rd.coords (sadd (smul k 2) j)) = .ok fun j => coords j k := forAxes_ok _ _ hrow
    have hnext : (s.finder.reset s.dIndices fun j => coords j k).next g =
        .ok (-3, s.finder.reset s.dIndices fun j => coords j k) := by
      unfold Finder.next
      have hin : (s.finder.reset s.dIndices fun j => coords j k).inside b = false := by
        unfold Finder.inside
        rw [List.all_eq_false]
        refine ⟨0, List.mem_finRange _, ?_⟩
        simp only [hb0, Finder.reset, decide_eq_true_eq, Bool.and_eq_true, not_and]
        intro h
        exact absurd h (hbig k hk)
      have hb' : (s.finder.reset s.dIndices fun j => coords j k).bounds = some b := hb
      have hsl' : (s.finder.reset s.dIndices fun j => coords j k).slvr = some sl := hsl
      rw [hb', hsl']
      simp only [hin]
      rfl
    have hfind : findTarget g s.finder (fun j => coords j k) s.dIndices = .ok (-3, s.finder.reset s.dIndices fun j => coords j k) := by
      unfold findTarget
      obtain ⟨q, hq⟩ : ∃ q, s.finder.fuelOf = q + 1 := ⟨s.finder.fuelOf - 1, by unfold Finder.fuelOf; omega⟩
      rw [hq]
      unfold searchLoop
      rw [hnext]
      rfl
    refine ⟨{ s with finder := s.finder.reset s.dIndices fun j => coords j k }, ?_, ⟨⟨b, hb, hb0⟩, sl, hsl⟩, hw⟩
    unfold nodeR
    rw [hta]
    simp only [hfind, bind, Except.bind, pure, Except.pure]
    rfl)
  refine ⟨_, o', st.finder, e1, e2, ?_⟩
  unfold RNode.computeWeights
  rw [hsrc, hrd]
  simp only [est, hw, bind, Except.bind, pure, Except.pure]

end generic

/-! ### The hypotheses can be met -/

open Sg.Witness

/-- One destination point in a source grid of 2 × 3 nodes, from arrays that are longer than needed. -/
example : PassedDst (F := ℚ) ![1, 1] (fun i _ => if i = 0 then 1/2 else 1) [1, 1] [[1/2, 99], [1]] where
  counts := by decide
  arrays := by
    intro i
    fin_cases i
    · exact ⟨_, rfl, by decide +kernel⟩
    · exact ⟨_, rfl, by decide +kernel⟩

/-- The weights for it, with the integers as the code keeps them. -/
noncomputable def ex_node : Call' (NodeInterp.Table ℚ) := do
  let o ← (RNode.new 10 (1/100) : RNode ℚ).setDstGrid [1, 1] [[1/2, 99], [1]]
  let o ← o.setSrcGrid [2, 3] [0, 0] [[0, 0, 0, 1, 1, 1], [0, 1, 2, 0, 1, 2]]
  let r ← lift' (o.computeWeights cramerGels)
  return r.2

example : ex_node = .ok [(0, [(1, 1/2), (2, 0), (4, 1/2), (5, 0)])] := by
  decide +kernel

/-- One destination point given with two negative counts: it is treated like 1 × 1. -/
example : ((do
    let o ← (RNode.new 10 (1/100) : RNode ℚ).setDstGrid [-1, -1] [[1/2, 99], [1]]
    let o ← o.setSrcGrid [2, 3] [0, 0] [[0, 0, 0, 1, 1, 1], [0, 1, 2, 0, 1, 2]]
    let r ← lift' (o.computeWeights cramerGels)
    return r.2 : Call' (NodeInterp.Table ℚ))) = ex_node := by
  decide +kernel

/-- 65536 × 32768 source nodes are one too many; one negative count; an array that is too short. -/
example (o : RNode ℚ) (C : List (List ℚ)) : o.setSrcGrid [65536, 32768] [0, 0] C = .error (.undefined .signedOverflow) :=
  C112_src_too_many (dims := ![65536, 32768]) o C (by decide) (by decide) (by decide) (by decide)
example (o : RNode ℚ) (C : List (List ℚ)) : o.setDstGrid [-3, 4] C = .error .lengthError :=
  (C112_dst_negative o (a := 3) (b := 4) (by decide) (by decide) (by decide) (by decide) C).1
example (o : RNode ℚ) : o.setDstGrid [2, 2] [[0, 0, 1, 1], [0, 1, 0]] = .error (.undefined .outOfBounds) :=
  C112_dst_short o (n0 := 2) (n1 := 2) (by decide) (by decide) (by decide) (by decide) (by decide) (by decide)

/-- A source grid of 0 × 5 nodes. -/
example : ∃ o o' f, (RNode.new 10 (1/100) : RNode ℚ).setSrcGrid [0, 5] [0, 0] [] = .ok o ∧
    o.setDstGrid [1, 1] [[1/2, 99], [1]] = .ok o' ∧ o'.computeWeights cramerGels = .ok (f, []) :=
  C112_src_empty cramerGels 10 (1/100) (n0 := 0) (n1 := 5) (by decide) (by decide) (by decide) [0, 0] (by decide) [] _
    (dims := ![1, 1]) (coords := fun i _ => if i = 0 then 1/2 else 1)
    ⟨by decide, by
      intro i
      fin_cases i
      · exact ⟨_, rfl, by decide +kernel⟩
      · exact ⟨_, rfl, by decide +kernel⟩⟩ (by decide) (by decide) (by decide) (by decide +kernel)

end Sg.Props
