import Verif.Model.TriangulateRaw
import Verif.Props.Triangulate
import Verif.Props.LinearSolveRaw
/-
Property C128: the triangulation with the integers and the memory of the interface.
-/
namespace Sg.Props
open Sg Sg.Triangulate Sg.FindPoint Sg.Spec MeasureTheory

set_option linter.unusedSectionVars false
variable {F : Type} [Zero F] [One F] [Add F] [Sub F] [Mul F] [Div F] [Neg F] [LT F] [DecidableLT F] [NatCast F] [IntCast F]

/-- The points that `n` pairs of numbers in memory stand for. -/
def pointsIn (mem : List F) (n : Nat) : List (Pt F) := (List.range n).map fun i => (mem.getD (2 * i) 0, mem.getD (2 * i + 1) 0)

/-- What the C++ standard says of `std::sort` on the numbers below `n`, for a comparison that always gives an answer: the result is a
rearrangement in which no element comes after one it is less than. -/
def SortsInds (sort : SortInds) : Prop :=
  ∀ (less : Nat → Nat → Bool) (cmp : Nat → Nat → Cxx Bool) (n : Nat), (∀ i < n, ∀ j < n, cmp i j = .ok (less i j)) →
    (∀ i < n, less i i = false) → (∀ i < n, ∀ j < n, ∀ k < n, less i j → less j k → less i k) →
    (∀ i < n, ∀ j < n, ∀ k < n, less i k → less i j ∨ less j k) →
    ∃ l, sort cmp n = .ok l ∧ l.Perm (List.range n) ∧ l.Pairwise fun i j => less j i = false

theorem pointsIn_length (mem : List F) (n : Nat) : (pointsIn mem n).length = n := by simp [pointsIn]

theorem pairs_flat : ∀ (n : Nat) (l : List F), l.length = 2 * n → pairs l = pointsIn l n
  | 0, [], _ => rfl
  | n + 1, x :: y :: l, h => by
    have ih := pairs_flat n l (by simp at h; omega)
    simp only [pairs, ih, pointsIn, List.range_succ_eq_map, List.map_cons, List.map_map]
    congr 1

theorem gravity_raw (hcast : ∀ k : Nat, ((k : Int) : F) = (k : F)) (n : Nat) (mem : List F) (hm : 2 * n ≤ mem.length) :
    gravityCenterRaw (n : Int) mem = .ok (gravityCenter (pointsIn mem n)) := by
  unfold gravityCenterRaw gravityCenter
  rw [pointsIn_length, Int.toNat_natCast]
  have := forN_inv (fun k (c : Pt F) => c = ((List.range k).map fun i => (mem.getD (2 * i) 0, mem.getD (2 * i + 1) 0)).foldl
      (fun c p => (c.1 + p.1 / (n : F), c.2 + p.2 / (n : F))) (0, 0))
    (fun i c => do
      let x ← vget mem (2 * i)
      let y ← vget mem (2 * i + 1)
      return (c.1 + x / ((n : Int) : F), c.2 + y / ((n : Int) : F))) n (0, 0) rfl (by
    intro k c hk hc
    rw [vget_getD (show 2 * k < mem.length by omega), vget_getD (show 2 * k + 1 < mem.length by omega)]
    refine ⟨_, rfl, ?_⟩
    rw [List.range_succ, List.map_append, List.foldl_append, ← hc, hcast]
    rfl)
  obtain ⟨c, e, hc⟩ := this
  rw [e, hc]
  rfl

theorem distance_raw (n : Nat) (mem : List F) (hm : 2 * n ≤ mem.length) (c : Pt F) {i : Nat} (hi : i < n) :
    distanceRaw mem c i = .ok (distanceSquareFromCenter c (mem.getD (2 * i) 0, mem.getD (2 * i + 1) 0)) := by
  unfold distanceRaw
  rw [vget_getD (show 2 * i < mem.length by omega), vget_getD (show 2 * i + 1 < mem.length by omega)]
  rfl

theorem copy_raw (n : Nat) (mem : List F) (hm : 2 * n ≤ mem.length) (inds : List Nat) (hl : inds.length = n) (hi : ∀ i ∈ inds, i < n)
    (points : List F) (hp : points.length = 2 * n) :
    ∃ v, copyPoints mem inds points = .ok v ∧ pairs v = inds.map fun i => (mem.getD (2 * i) 0, mem.getD (2 * i + 1) 0) := by
  unfold copyPoints
  rw [hl]
  obtain ⟨v, e, h1, h2⟩ := forN_inv (fun k (v : List F) => v.length = 2 * n ∧ ∀ i < k, ∃ q, inds[i]? = some q ∧
      v[2 * i]? = some (mem.getD (2 * q) 0) ∧ v[2 * i + 1]? = some (mem.getD (2 * q + 1) 0))
    (fun i points => do
      let indx ← vget inds i
      forN 2 points fun j points => do
        let x ← vget mem (2 * indx + j)
        vset points (2 * i + j) x) n points ⟨hp, fun i hi => by omega⟩ (by
    intro k v hk ⟨hv, hq⟩
    have hk' : k < inds.length := by omega
    have hlt := hi _ (List.getElem_mem hk')
    refine ⟨(v.set (2 * k) (mem.getD (2 * inds[k]) 0)).set (2 * k + 1) (mem.getD (2 * inds[k] + 1) 0), ?_, by simp [hv], ?_⟩
    · rw [vget_ok hk']
      simp only [bind, Except.bind, forN, forFrom, Nat.add_zero, Nat.zero_add]
      rw [vget_getD (show 2 * inds[k] < mem.length by omega), vget_getD (show 2 * inds[k] + 1 < mem.length by omega)]
      simp only
      rw [vset_ok (show 2 * k < v.length by omega)]
      simp only
      rw [vset_ok (by simp; omega)]
    · intro i hi'
      rcases Nat.lt_or_ge i k with h | h
      · obtain ⟨q, a, b, c⟩ := hq i h
        refine ⟨q, a, ?_, ?_⟩
        · rw [List.getElem?_set_ne (by omega), List.getElem?_set_ne (by omega)]; exact b
        · rw [List.getElem?_set_ne (by omega), List.getElem?_set_ne (by omega)]; exact c
      · have : i = k := by omega
        subst this
        refine ⟨inds[i], by simp [hk'], ?_, ?_⟩
        · rw [List.getElem?_set_ne (by omega), List.getElem?_set_self (by omega)]
        · rw [List.getElem?_set_self (by simp; omega)])
  refine ⟨v, e, ?_⟩
  rw [pairs_flat n v h1]
  refine List.ext_getElem? fun i => ?_
  rcases Nat.lt_or_ge i n with h | h
  · obtain ⟨q, a, b, c⟩ := h2 i h
    simp only [pointsIn, List.getElem?_map, a, List.getElem?_range h, Option.map_some, List.getD_eq_getElem?_getD, b, c, Option.getD_some]
  · rw [List.getElem?_eq_none (by rw [pointsIn_length]; exact h), List.getElem?_eq_none (by simp [hl]; exact h)]

/-- **C128** for every number of points that is not negative, every memory with two numbers for each of them at least and every `std::sort`:
the object is the one of the model on points, for an order of the points that `std::sort` may give; the call is undefined exactly if that
one is. -/
theorem C128_new (hcast : ∀ k : Nat, ((k : Int) : F) = (k : F)) (hirr : ∀ a : F, ¬ a < a) (htr : ∀ a b c : F, a < b → b < c → a < c)
    (hneg : ∀ a b c : F, a < c → a < b ∨ b < c) (sort : SortInds) (hsort : SortsInds sort) (mode : Mode) (n : Nat) (hn : 2 * n ≤ 2147483647)
    (mem : List F) (hm : 2 * n ≤ mem.length) :
    ∃ sorted, IsStdSort (pointsIn mem n) sorted ∧ newRaw sort mode n mem = lift' (build mode sorted) := by
  set c := gravityCenter (pointsIn mem n)
  set pt : Nat → Pt F := fun i => (mem.getD (2 * i) 0, mem.getD (2 * i + 1) 0) with hpt
  set less : Nat → Nat → Bool := fun i j => decide (distanceSquareFromCenter c (pt i) < distanceSquareFromCenter c (pt j)) with hless
  have hcmp : ∀ i < n, ∀ j < n, lessRaw mem c i j = .ok (less i j) := by
    intro i hi j hj
    unfold lessRaw
    rw [distance_raw n mem hm c hi, distance_raw n mem hm c hj]
    rfl
  obtain ⟨l, el, hperm, hpw⟩ := hsort less (lessRaw mem c) n hcmp (fun i _ => by simp [hless, hirr]) (fun i _ j _ k _ h1 h2 => by
    simp only [hless, decide_eq_true_eq] at h1 h2 ⊢; exact htr _ _ _ h1 h2) (fun i _ j _ k _ h => by
    simp only [hless, decide_eq_true_eq] at h ⊢; exact hneg _ _ _ h)
  have hll : l.length = n := by rw [hperm.length_eq]; simp
  refine ⟨l.map pt, ⟨?_, ?_⟩, ?_⟩
  · exact hperm.map pt
  · rw [List.pairwise_map]
    refine hpw.imp fun {i j} h => ?_
    simpa [hless, sortLt] using h
  · have him : imul 2 (n : Int) = .ok ((2 * n : Nat) : Int) := by
      rw [imul_eq (by unfold inI32; omega)]; push_cast; rfl
    have r1 : resize ([] : List F) (toSize ((2 * n : Nat) : Int)) 0 = .ok (List.replicate (2 * n) 0) := resize_nil_nat 0 hn
    have r2 : resize (List.replicate (2 * n) (0 : F)) (toSize ((2 * n : Nat) : Int)) 0 = .ok (List.replicate (2 * n) 0) := by
      rw [toSize_nat (by omega), resize_ok (by omega)]; simp [rsz]
    have r3 : resize ([] : List Nat) (toSize (n : Int)) 0 = .ok (List.replicate n 0) := resize_nil_nat 0 (by omega)
    obtain ⟨v, ev, hv⟩ := copy_raw n mem hm l hll (fun i hi => List.mem_range.1 (hperm.mem_iff.1 hi)) (List.replicate (2 * n) 0) (by simp)
    unfold newRaw
    simp only [him, r1, r2, r3, gravity_raw hcast n mem hm, lift', bind, Except.bind, Int.toNat_natCast]
    rw [show gravityCenter (pointsIn mem n) = c from rfl, el]
    dsimp only
    rw [ev]
    dsimp only
    rw [hv]
    unfold build
    simp only [List.length_map, hll, bind, Except.bind]
    rfl

/-- **C128** a negative number of points: refused by an exception, or undefined if twice the number overflows. -/
theorem C128_negative (sort : SortInds) (mode : Mode) (numPoints : Int) (h0 : numPoints < 0) (mem : List F) :
    (newRaw sort mode numPoints mem = .error .lengthError ∧ -1073741824 ≤ numPoints) ∨
    (newRaw sort mode numPoints mem = .error (.undefined .signedOverflow) ∧ numPoints < -1073741824) := by
  unfold newRaw
  by_cases h : inI32 (2 * numPoints)
  · refine .inl ⟨?_, by unfold inI32 at h; omega⟩
    rw [imul_eq h]
    simp only [lift', bind, Except.bind]
    rw [resize_nil_neg _ h (by omega)]
  · refine .inr ⟨?_, by unfold inI32 at h; omega⟩
    unfold imul chk
    simp only [if_neg h, lift', bind, Except.bind]

/-- **C128** more than 2^30 - 1 points: twice the number overflows. -/
theorem C128_many (sort : SortInds) (mode : Mode) (numPoints : Int) (h0 : 1073741823 < numPoints) (mem : List F) :
    newRaw sort mode numPoints mem = .error (.undefined .signedOverflow) := by
  unfold newRaw imul chk
  simp only [if_neg (show ¬ inI32 (2 * numPoints) by unfold inI32; omega), lift', bind, Except.bind]

/-- **C128** memory with fewer than two numbers per point is read past its end. -/
theorem C128_short (sort : SortInds) (mode : Mode) (n : Nat) (hn : 2 * n ≤ 2147483647) (mem : List F) (hm : mem.length < 2 * n) :
    newRaw sort mode n mem = .error (.undefined .outOfBounds) := by
  have hg : gravityCenterRaw (n : Int) mem = .error .outOfBounds := by
    unfold gravityCenterRaw
    rw [Int.toNat_natCast]
    rcases forN_inv_or (fun _ => True) (· = .outOfBounds) (fun i (c : Pt F) => do
      let x ← vget mem (2 * i)
      let y ← vget mem (2 * i + 1)
      return (c.1 + x / ((n : Int) : F), c.2 + y / ((n : Int) : F))) n (0, 0) trivial (by
        intro k c _ _
        unfold vget
        cases h1 : mem[2 * k]? with
        | none => exact .inr ⟨_, rfl, rfl⟩
        | some x =>
          cases h2 : mem[2 * k + 1]? with
          | none => exact .inr ⟨_, rfl, rfl⟩
          | some y => exact .inl ⟨_, rfl, trivial⟩) with ⟨c, e, -⟩ | ⟨e, he, rfl⟩
    · exfalso
      have := forN_inv_ok (fun k (_ : Pt F) => 2 * k ≤ mem.length) _ n (0, 0) c (by simp) (by
        intro k s s' _ _ hs
        obtain ⟨x, -, hs⟩ := bind_ok_inv hs
        obtain ⟨y, hy, hs⟩ := bind_ok_inv hs
        have := (List.getElem?_eq_some_iff.1 (vget_eq_ok.1 hy)).1
        omega) e
      omega
    · exact he
  have him : imul 2 (n : Int) = .ok ((2 * n : Nat) : Int) := by
    rw [imul_eq (by unfold inI32; omega)]; push_cast; rfl
  have r1 : resize ([] : List F) (toSize ((2 * n : Nat) : Int)) 0 = .ok (List.replicate (2 * n) 0) := resize_nil_nat 0 hn
  unfold newRaw
  simp only [him, r1, hg, lift', bind, Except.bind]

/-- **C128** the area through the interface: for real numbers in memory that are the corners of a convex polygon, in any order and with
repetitions (`keptBuffer`), the area returned is that of the convex hull of the points in memory. -/
theorem C128_area (sort : SortInds) (hsort : SortsInds sort) (n : Nat) (hn : 2 * n ≤ 2147483647) (mem : List ℝ) (hm : 2 * n ≤ mem.length)
    (hclean : TolClean (ptsOf (pointsIn mem n))) (hcp : ConvexPosition (ptsOf (pointsIn mem n)))
    (hnc : ¬ Collinear2 (ptsOf (pointsIn mem n))) :
    ∃ o a, newRaw sort .keptBuffer n mem = .ok o ∧ getConvexHullArea o = .ok a ∧ 0 ≤ a ∧
      volume (convexHull ℝ (ptsOf (pointsIn mem n))) = ENNReal.ofReal a := by
  obtain ⟨sorted, hs, e⟩ := C128_new (fun k => by simp) (fun a => lt_irrefl a) (fun a b c => lt_trans) (fun a b c h => by
    rcases lt_or_ge a b with h' | h'
    · exact .inl h'
    · exact .inr (lt_of_le_of_lt h' h)) sort hsort .keptBuffer n hn mem hm
  obtain ⟨a, ha, h0, hv⟩ := C45_hull_area .keptBuffer _ sorted hs hclean hcp hnc (.inl rfl)
  unfold hullArea at ha
  obtain ⟨o, ho, ha⟩ := bind_ok_inv ha
  exact ⟨o, a, by rw [e, ho]; rfl, ha, h0, hv⟩

/-! ### Concrete cases -/

/-- A sort of indices: merge sort. -/
def mergeInds : SortInds := fun cmp n =>
  .ok (((List.finRange n).mergeSort fun i j => !((cmp j i).toOption.getD false)).map Fin.val)

/-- Merge sort does what is asked of `std::sort`. -/
theorem mergeInds_sorts : SortsInds mergeInds := by
  intro less cmp n hcmp hirr htr hneg
  have hle : ∀ i j : Fin n, (!((cmp j i).toOption.getD false)) = !(less j i) := by
    intro i j
    rw [hcmp j j.2 i i.2]; rfl
  have hf : (fun i j : Fin n => !((cmp j i).toOption.getD false)) = fun i j : Fin n => !(less j i) := by
    funext i j; exact hle i j
  refine ⟨_, rfl, ?_, ?_⟩
  · have h1 := (List.mergeSort_perm (List.finRange n) fun i j : Fin n => !((cmp j i).toOption.getD false)).map Fin.val
    rwa [List.map_coe_finRange_eq_range] at h1
  · rw [hf, List.pairwise_map]
    have := List.pairwise_mergeSort (le := fun i j : Fin n => !(less j i)) (fun a b c h1 h2 => by
      simp only [Bool.not_eq_true'] at h1 h2 ⊢
      by_contra h
      rw [Bool.not_eq_false] at h
      rcases hneg c c.2 b b.2 a a.2 h with h | h
      · rw [h2] at h; cases h
      · rw [h1] at h; cases h) (fun a b => by
      rcases h : less b a with - | -
      · simp
      · rcases h' : less a b with - | -
        · simp
        · have := htr a a.2 b b.2 a a.2 h' h
          rw [hirr a a.2] at this; cases this) (List.finRange n)
    refine this.imp fun {i j} h => ?_
    simpa using h

/-- The hypotheses of the theorem on the area are met by the square with points on its sides, one of them twice. -/
example : ∃ o a, newRaw mergeInds .keptBuffer 7 [(0 : ℝ), 0, 2, 0, 2, 2, 0, 2, 1, 0, 2, 1, 1, 0, 77] = .ok o ∧
    getConvexHullArea o = .ok a ∧ 0 ≤ a ∧ volume (convexHull ℝ (ptsOf (squarePts.map zpt))) = ENNReal.ofReal a := by
  have hp : pointsIn [(0 : ℝ), 0, 2, 0, 2, 2, 0, 2, 1, 0, 2, 1, 1, 0, 77] 7 = squarePts.map zpt := by
    simp [pointsIn, squarePts, zpt, List.range_succ]
  have := C128_area mergeInds mergeInds_sorts 7 (by norm_num) [(0 : ℝ), 0, 2, 0, 2, 2, 0, 2, 1, 0, 2, 1, 1, 0, 77] (by simp)
    (by rw [hp]; exact tolClean_int _) (by rw [hp]; exact squarePts_convex) (by rw [hp]; exact squarePts_not_line)
  rwa [hp] at this

example : (newRaw mergeInds .standard (-1) [(1 : ℚ)]).toOption = none := by
  rcases C128_negative (F := ℚ) mergeInds .standard (-1) (by norm_num) [1] with ⟨h, -⟩ | ⟨h, -⟩ <;> rw [h] <;> rfl
example : newRaw mergeInds .keptBuffer 3 [(0 : ℚ), 0, 1, 0, 0] = .error (.undefined .outOfBounds) :=
  C128_short mergeInds .keptBuffer 3 (by norm_num) _ (by simp)

end Sg.Props
