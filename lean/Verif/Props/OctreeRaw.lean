import Verif.Spec.OctreeRaw
import Verif.Proof.OctreeRaw2
import Verif.Props.OctreeFlat
/-
Property C131: the octree with any `int` arguments, on its vectors.
-/
set_option linter.unusedSectionVars false

namespace Sg.Props
open Sg Sg.Octree Sg.Spec
open Sg.FindPoint (Stop toSize)

variable {F : Type} [Zero F] [One F] [Add F] [Sub F] [Mul F] [Div F] [Neg F] [LT F] [DecidableLT F] [NatCast F] [HasFloor F]

omit [Zero F] [One F] [Add F] [Sub F] [Mul F] [Div F] [Neg F] [LT F] [DecidableLT F] [NatCast F] [HasFloor F] in
theorem toSize_nat {x : Int} (h : 0 ≤ x) (h2 : x ≤ 2147483647) : toSize x = x.toNat := by
  unfold toSize; omega

theorem newCRaw_eq (fuel : Nat) (big : F) (numLevels ndims npoints : Int) (mem : List F) (h1 : 0 ≤ ndims) (hr : Readable ndims npoints mem) :
    newCRaw fuel big numLevels ndims npoints mem = RTree.new fuel big (toSize numLevels) (toSize ndims) (mem.take (npoints * ndims).toNat) := by
  obtain ⟨a, b, c⟩ := hr
  have h0 : 0 ≤ npoints * ndims := mul_nonneg a h1
  unfold newCRaw imul chk
  rw [if_pos (show inI32 _ from ⟨by omega, by omega⟩)]
  simp only [FindPoint.lift', ofCall, bind, Except.bind]
  rw [if_neg (by omega)]

theorem holds_rep {n : Nat} {r : RTree F} {t : Tree F n} {keys : List (Nat × List Nat)} (h : Holds r t keys) :
    Rep n t.xmins t.xmaxs t.nlevs r :=
  ⟨by rw [h.strides]; exact congrArg List.ofFn (funext fun j => (prodDims_eq n j j.2).symm), h.low, h.high, h.axes, h.levels⟩

/-- C131, construction: for any number of levels that is not negative, 1 to 53 axes and memory with all points, the constructor
returns, given enough rounds for its recursion, and its vectors and maps hold the tree and keys of `SgOctreePoints_new` as C15 to C17
describe them. -/
theorem C131_new (big : F) (numLevels ndims npoints : Int) (mem : List F) (h0 : 0 ≤ numLevels) (h0' : numLevels ≤ 2147483647) (h1 : 0 < ndims) (h2 : ndims ≤ 53)
    (hr : Readable ndims npoints mem) :
    ∃ t keys, newC big numLevels ndims npoints mem = .ok (t, keys) ∧
      ∃ N, ∀ fuel, N ≤ fuel → ∃ r, newCRaw fuel big numLevels ndims npoints mem = .ok r ∧ Holds r t keys := by
  have hr' := hr
  obtain ⟨a, b, c⟩ := hr
  have hnn : 0 ≤ npoints * ndims := mul_nonneg a h1.le
  obtain ⟨n, rfl⟩ : ∃ n : Nat, ndims = n := ⟨ndims.toNat, by omega⟩
  have hn : n ≠ 0 := by omega
  generalize hpts : mem.take (npoints * (n : Int)).toNat = points
  obtain ⟨bd, hb, _⟩ := new_start 0 big numLevels.toNat points hn (by omega)
  refine ⟨build bd.1 bd.2 numLevels.toNat, pointKeys bd.1 bd.2 numLevels.toNat points, ?_, ?_⟩
  · unfold newC imul chk
    rw [if_pos (show inI32 _ from ⟨by omega, by omega⟩)]
    simp only [bind, Except.bind]
    rw [if_neg (by omega), if_neg (by omega), hpts]
    unfold newFlat
    simp only [Int.toNat_natCast]
    rw [hb]
    simp only [bind, Except.bind, if_neg hn]
    have := nodes_flat bd.1 bd.2 numLevels.toNat points
    simp only [bind, Except.bind] at this
    rw [this]
    rfl
  · obtain ⟨N, hN⟩ := refine_build bd.1 bd.2 numLevels.toNat (by omega)
    refine ⟨N, fun fuel hf => ?_⟩
    obtain ⟨bd', hb', e⟩ := new_start fuel big numLevels.toNat points hn (by omega)
    have : bd' = bd := by rw [hb] at hb'; exact (Except.ok.inj hb').symm
    subst this
    have hrep : Rep n bd'.1 bd'.2 numLevels.toNat (startTree bd' numLevels.toNat) := startTree_rep bd' _ (by omega)
    have hsz : toSize (n : Int) = n := by rw [toSize_nat (by omega) (by omega), Int.toNat_natCast]
    rw [newCRaw_eq fuel big numLevels n npoints mem (by omega) hr', toSize_nat h0 h0', hsz, hpts, e,
      hN fuel hf _ hrep rfl]
    simp only [bind, Except.bind]
    have := nodes_raw (t := { startTree bd' numLevels.toNat with octree := entries (build bd'.1 bd'.2 numLevels.toNat) })
      ⟨hrep.1, hrep.2, hrep.3, hrep.4, hrep.5⟩ (by omega) points rfl
    simp only [bind, Except.bind] at this
    rw [this]
    refine ⟨_, rfl, ⟨rfl, rfl, rfl, rfl, ?_, rfl, rfl⟩⟩
    rw [show (startTree bd' numLevels.toNat).prodDims = List.ofFn fun j : Fin n => prodDims n j from hrep.1]
    exact congrArg List.ofFn (funext fun j => prodDims_eq n j j.2)

/-- C131, questions: an object that holds a tree on fewer than 64 axes answers as the tree does, for any key, any index, any number of
levels, and any point whose coordinates the caller has in memory; a pointer to fewer numbers is undefined behaviour. -/
theorem C131_queries {n : Nat} (hn : n < 64) {r : RTree F} {t : Tree F n} {keys : List (Nat × List Nat)} (h : Holds r t keys) :
    (∀ key, r.getLo key = List.ofFn (t.getLo key) ∧ r.getHi key = List.ofFn (t.getHi key)) ∧
    (∀ q, r.getIndices q = .ok (List.ofFn fun j : Fin n => q / 2 ^ (n - 1 - (j : Nat)) % 2)) ∧
    (∀ key, r.computeLoHi key [] [] = .ok (List.ofFn (computeLoHi t.xmins t.xmaxs key).1, List.ofFn (computeLoHi t.xmins t.xmaxs key).2)) ∧
    (∀ (mem : List F) (off lev : Nat) (p : Fin n → F), (∀ j : Fin n, mem[off + j]? = some (p j)) → off + n ≤ mem.length →
      r.getKey mem off lev = .ok (getKey t.xmins t.xmaxs p lev)) ∧
    ∀ (mem : List F) (off lev : Nat), mem.length < off + n → r.getKey mem off lev = .error .outOfBounds := by
  have hrep := holds_rep h
  have hf : ∀ key, r.find key = (t.find key).map fun e => (List.ofFn e.1, List.ofFn e.2) := by
    intro key
    unfold RTree.find Tree.find
    rw [h.boxes, List.find?_map]
    simp only [Option.map_map]
    rfl
  refine ⟨?_, ?_, computeLoHi_raw hrep, ?_, fun mem off lev hm => getKey_short hrep mem off lev hm⟩
  · intro key
    unfold RTree.getLo RTree.getHi Tree.getLo Tree.getHi
    rw [hf]
    cases t.find key with
    | none => exact ⟨h.low, h.high⟩
    | some e => exact ⟨rfl, rfl⟩
  · intro q
    rw [getIndices_raw hrep]
    refine congrArg Except.ok (congrArg List.ofFn (funext fun j => ?_))
    unfold getIndices
    rw [prodDims_eq n j j.2]
  · intro mem off lev p hp hm
    rw [getKey_raw hrep hn mem off lev hm]
    have : pointOf n mem off = p := by
      funext j
      simp [pointOf, hp j]
    rw [this]

/-- C131, no axes: the constructor divides by zero. -/
theorem C131_no_axes (big : F) (numLevels npoints : Int) (mem : List F) (h0 : 0 ≤ numLevels) (h0' : numLevels ≤ 2147483647) :
    ∃ N, ∀ fuel, N ≤ fuel → newCRaw fuel big numLevels 0 npoints mem = .error (.stop (.undefined .divByZero)) := by
  obtain ⟨N, hN⟩ := refine_build (n := 0) (fun _ => (0 : F)) (fun _ => 0) numLevels.toNat (by omega)
  refine ⟨N, fun fuel hf => ?_⟩
  unfold newCRaw imul chk
  rw [mul_zero, if_pos (show inI32 _ from ⟨by omega, by omega⟩)]
  simp only [FindPoint.lift', ofCall, bind, Except.bind]
  rw [if_neg (by simp), toSize_nat h0 h0']
  have := hN fuel hf { octree := [], node2Key := [], prodDims := [], xmins := [], xmaxs := [], ndims := 0, nlevs := numLevels.toNat }
    ⟨by simp, by simp, by simp, rfl, rfl⟩ rfl
  simp only [pure, Except.pure, Int.toNat_zero, List.take_zero, show toSize 0 = 0 from rfl]
  unfold RTree.new
  simp only [FindPoint.resize, ofCall, FindPoint.lift', cornersRaw, stridesRaw, forN, forFrom, bind, Except.bind,
    List.length_nil, List.take_nil, List.nil_append, Nat.sub_self, List.replicate_zero, Nat.zero_le, if_true,
    show (Sg.SideIterator.toInt (Sg.SideIterator.wrap (0 + 18446744073709551614)) + 1).toNat = 0 from by decide]
  rw [this]
  rfl

/-- C131, negative number of axes: with no points or a negative number of them the constructor throws `std::length_error`; with points
the range of the memory is not one. -/
theorem C131_negative_axes (fuel : Nat) (big : F) (numLevels ndims npoints : Int) (mem : List F) (h1 : ndims < 0) (h1' : -2147483648 ≤ ndims) :
    (0 < npoints → -2147483648 ≤ npoints * ndims → newCRaw fuel big numLevels ndims npoints mem = .error (.stop (.undefined .badPointer))) ∧
    (npoints ≤ 0 → npoints * ndims ≤ 2147483647 → npoints * ndims ≤ mem.length →
      newCRaw fuel big numLevels ndims npoints mem = .error (.stop .lengthError)) := by
  constructor
  · intro hp ho
    have hneg : npoints * ndims < 0 := mul_neg_of_pos_of_neg hp h1
    unfold newCRaw imul chk
    rw [if_pos (show inI32 _ from ⟨by omega, by omega⟩)]
    simp only [FindPoint.lift', ofCall, bind, Except.bind]
    rw [if_pos (Or.inl hneg)]
    rfl
  · intro hp ho hm
    have hnn : 0 ≤ npoints * ndims := mul_nonneg_of_nonpos_of_nonpos hp h1.le
    unfold newCRaw imul chk
    rw [if_pos (show inI32 _ from ⟨by omega, by omega⟩)]
    simp only [FindPoint.lift', ofCall, bind, Except.bind]
    rw [if_neg (by omega)]
    unfold RTree.new FindPoint.resize
    rw [if_neg (by unfold toSize; omega)]
    rfl

/-- C131, negative number of levels: with up to 63 axes the recursion is still going deeper after any number of rounds below `2^63`,
the depth of the calls being the number of rounds: the stack overflows. -/
theorem C131_negative_levels (fuel : Nat) (big : F) (numLevels ndims npoints : Int) (mem : List F) (h0 : numLevels < 0) (h0' : -2147483648 ≤ numLevels)
    (h1 : 0 < ndims) (h2 : ndims ≤ 64) (hr : Readable ndims npoints mem) (hf : fuel ≤ 2 ^ 63) :
    newCRaw fuel big numLevels ndims npoints mem = .error .fuel := by
  rw [newCRaw_eq fuel big numLevels ndims npoints mem h1.le hr, toSize_nat h1.le (by omega)]
  obtain ⟨b, _, e⟩ := new_start (n := ndims.toNat) fuel big (toSize numLevels) (mem.take (npoints * ndims).toNat) (by omega) (by omega)
  have h63 : (2 : Nat) ^ 63 = 9223372036854775808 := by norm_num
  rw [e, refine_deep b.1 b.2 (toSize numLevels) fuel _ [] (startTree_rep b _ (by omega)) (by unfold toSize; simp only [List.length_nil]; omega)]
  rfl

/-- C131, 54 to 64 axes: the loop over the quadrants has not ended after `2^53` rounds. -/
theorem C131_many_axes (fuel : Nat) (big : F) (numLevels ndims npoints : Int) (mem : List F)
    (h1 : 54 ≤ ndims) (h2 : ndims ≤ 64) (hr : Readable ndims npoints mem) (hf : fuel ≤ 2 ^ 53) :
    newCRaw fuel big numLevels ndims npoints mem = .error .fuel := by
  rw [newCRaw_eq fuel big numLevels ndims npoints mem (by omega) hr, toSize_nat (x := ndims) (by omega) (by omega)]
  obtain ⟨b, _, e⟩ := new_start (n := ndims.toNat) fuel big (toSize numLevels) (mem.take (npoints * ndims).toNat) (by omega) (by omega)
  have h53 : (2 : Nat) ^ 53 = 9007199254740992 := by norm_num
  rw [e, refine_long b.1 b.2 (toSize numLevels) (by omega) fuel _ [] 0 (startTree_rep b _ (by omega)) (by omega)]
  rfl

/-- C131, 65 axes or more: the first stride is zero and the first box divides by it. -/
theorem C131_too_many_axes (fuel : Nat) (big : F) (numLevels ndims npoints : Int) (mem : List F)
    (h1 : 65 ≤ ndims) (h2 : ndims ≤ 2147483647) (hr : Readable ndims npoints mem) (hf : 0 < fuel) :
    newCRaw fuel big numLevels ndims npoints mem = .error (.stop (.undefined .divByZero)) := by
  rw [newCRaw_eq fuel big numLevels ndims npoints mem (by omega) hr, toSize_nat (x := ndims) (by omega) (by omega)]
  obtain ⟨n, rfl⟩ : ∃ n : Nat, ndims = n := ⟨ndims.toNat, by omega⟩
  obtain ⟨b, _, e⟩ := new_start (n := n) fuel big (toSize numLevels) (mem.take (npoints * (n : Int)).toNat) (by omega) (by omega)
  rw [Int.toNat_natCast, e]
  obtain ⟨k, rfl⟩ : ∃ k, fuel = k + 1 := ⟨fuel - 1, by omega⟩
  obtain ⟨m, rfl⟩ : ∃ m, n = m + 1 := ⟨n - 1, by omega⟩
  have hstride : 2 ^ (m + 1 - 1 - 0) % 18446744073709551616 = 0 := by
    refine Nat.mod_eq_zero_of_dvd ?_
    rw [show (18446744073709551616 : Nat) = 2 ^ 64 by norm_num]
    exact pow_dvd_pow 2 (by omega)
  have hidx : (startTree b (toSize numLevels)).getIndices 0 = .error .divByZero := by
    unfold RTree.getIndices
    show forFrom 0 (m + 1) _ _ = _
    rw [forFrom]
    unfold startTree
    simp only
    rw [vget_ofFn _ 0 (Nat.succ_pos m)]
    simp only [bind, Except.bind, hstride, if_true]
    rfl
  have hbox : (startTree b (toSize numLevels)).visit ([] ++ [0]) = .error .divByZero := by
    unfold RTree.visit RTree.computeLoHi
    simp only [List.nil_append, List.length_singleton, forN, forFrom, bind, Except.bind]
    rw [show vget [0] 0 = .ok 0 from rfl]
    simp only
    rw [hidx]
  rw [RTree.refine, if_pos (by rw [toDouble_small (by omega)]; positivity)]
  simp only [hbox, FindPoint.lift', ofCall, bind, Except.bind]

section
variable {K : Type} [Field K] [LinearOrder K] [IsStrictOrderedRing K] [FloorRing K]

theorem loHiFrom_shift {n : Nat} : ∀ (key : List Nat) (dx : K) (lo hi u v : Fin n → K) (j : Fin n),
    (loHiFrom key dx (fun j => lo j + u j) v).1 j = (loHiFrom key dx lo hi).1 j + u j
  | [], _, _, _, _, _, _ => rfl
  | q :: key, dx, lo, hi, u, v, j => by
    unfold loHiFrom
    dsimp only
    rw [show (fun j => lo j + u j + (getIndices n q j : K) * dx) = fun j => lo j + (getIndices n q j : K) * dx + u j from
      funext fun j => add_right_comm _ _ _]
    exact loHiFrom_shift key (dx / (1 + 1)) (fun j => lo j + (getIndices n q j : K) * dx) _ u _ j

/-- C131, vectors that are not empty: `computeLoHi` does not clear the vectors it is given, so the low corner is off by what they held,
in units of the domain. -/
theorem C131_reused {n : Nat} {r : RTree K} {t : Tree K n} {keys : List (Nat × List Nat)} (h : Holds r t keys) (key : List Nat) (u v : Fin n → K) :
    ∃ hi, r.computeLoHi key (List.ofFn u) (List.ofFn v) =
      .ok (List.ofFn fun j => (computeLoHi t.xmins t.xmaxs key).1 j + u j * (t.xmaxs j - t.xmins j), hi) := by
  have hrep := holds_rep h
  unfold RTree.computeLoHi
  obtain ⟨dx', e⟩ := digits_ok hrep key (1 / (1 + 1)) u v
  have e2 := FindPoint.forN_list (fun q (s : (List K × List K) × K) => (do
        let inds ← r.getIndices q
        let b ← forN r.ndims s.1 (boxRound inds s.2)
        return (b, s.2 / (1 + 1)) : Cxx ((List K × List K) × K))) key ((List.ofFn u, List.ofFn v), (1 / (1 + 1) : K))
  rw [e] at e2
  have hu : (List.ofFn u).take n ++ List.replicate (n - (List.ofFn u).length) 0 = List.ofFn u := by simp
  have hv : (List.ofFn v).take n ++ List.replicate (n - (List.ofFn v).length) 1 = List.ofFn v := by simp
  simp only [hrep.ndims, hu, hv] at e2 ⊢
  rw [e2]
  simp only [bind, Except.bind]
  rw [scale_ok hrep]
  refine ⟨List.ofFn fun j => (loHiFrom key (1 / (1 + 1)) u v).2 j * (t.xmaxs j - t.xmins j) + t.xmins j, ?_⟩
  have : (fun j => (loHiFrom key (1 / (1 + 1)) u v).1 j * (t.xmaxs j - t.xmins j) + t.xmins j) =
      fun j => (computeLoHi t.xmins t.xmaxs key).1 j + u j * (t.xmaxs j - t.xmins j) := by
    funext j
    have := loHiFrom_shift key (1 / (1 + 1)) (fun _ => (0 : K)) (fun _ => 1) u v j
    simp only [zero_add] at this
    rw [this]
    unfold computeLoHi
    dsimp only
    ring
  rw [this]

end

/-- Three points in the plane, two levels: the constructor returns and the boxes are those of the tree. -/
def demoPts : List ℚ := [0, 0, 4, 2, 1, 2]

example : Readable 2 3 demoPts := ⟨by decide, by decide, by decide⟩

example : ∃ t keys, newC (1000 : ℚ) 2 2 3 demoPts = .ok (t, keys) ∧
    ∃ N, ∀ fuel, N ≤ fuel → ∃ r, newCRaw fuel 1000 2 2 3 demoPts = .ok r ∧ Holds r t keys :=
  C131_new 1000 2 2 3 demoPts (by decide) (by decide) (by decide) (by decide) ⟨by decide, by decide, by decide⟩

/-- The run itself: number of boxes, one box. -/
example : (newCRaw (40 : Nat) (1000 : ℚ) 2 2 3 demoPts).map (fun r => (r.octree.length, r.getLo [1, 2], r.getHi [1, 2])) =
    .ok (20, [1, 1], [2, 3 / 2]) := by decide +kernel

/-- The objects of `C131_queries` and `C131_reused` exist. -/
example : ∃ (r : RTree ℚ) (t : Tree ℚ 2) (keys : List (Nat × List Nat)), Holds r t keys ∧ t.nlevs = 2 := by
  obtain ⟨t, keys, e, N, hN⟩ := C131_new (1000 : ℚ) 2 2 3 demoPts (by decide) (by decide) (by decide) (by decide) ⟨by decide, by decide, by decide⟩
  obtain ⟨r, er, h⟩ := hN N le_rfl
  obtain ⟨b, keys', _, e', _⟩ := newC_ok (1000 : ℚ) 2 2 3 demoPts (by decide) (by decide) (by decide) (by decide) (by decide)
  rw [e] at e'
  have : t = build b.1 b.2 (2 : Int).toNat := (Prod.mk.inj (Except.ok.inj e')).1
  exact ⟨r, t, keys, h, by rw [this]; rfl⟩

example (fuel : Nat) (h : fuel ≤ 2 ^ 63) : newCRaw fuel (1000 : ℚ) (-1) 2 3 demoPts = .error .fuel :=
  C131_negative_levels fuel 1000 (-1) 2 3 demoPts (by decide) (by decide) (by decide) (by decide) ⟨by decide, by decide, by decide⟩ h

example (fuel : Nat) (h : fuel ≤ 2 ^ 53) : newCRaw fuel (1000 : ℚ) 1 60 0 [] = .error .fuel :=
  C131_many_axes fuel 1000 1 60 0 [] (by decide) (by decide) ⟨by decide, by decide, by decide⟩ h

example : newCRaw 1 (1000 : ℚ) 1 65 0 [] = .error (.stop (.undefined .divByZero)) :=
  C131_too_many_axes 1 1000 1 65 0 [] (by decide) (by decide) ⟨by decide, by decide, by decide⟩ (by decide)

example : newCRaw 1 (1000 : ℚ) 1 (-2) 3 demoPts = .error (.stop (.undefined .badPointer)) ∧
    newCRaw 1 (1000 : ℚ) 1 (-2) (-3) demoPts = .error (.stop .lengthError) :=
  ⟨(C131_negative_axes 1 1000 1 (-2) 3 demoPts (by decide) (by decide)).1 (by decide) (by decide),
   (C131_negative_axes 1 1000 1 (-2) (-3) demoPts (by decide) (by decide)).2 (by decide) (by decide) (by decide)⟩

end Sg.Props
