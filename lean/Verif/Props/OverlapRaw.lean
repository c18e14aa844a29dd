import Verif.Model.FindOverlapRaw
import Verif.Proof.GridsRaw
import Verif.Props.FindPointRaw
import Verif.Props.FindOverlap
/-
Property C125: the search of candidate cells with the integers and the memory of the interface.
-/
namespace Sg.Props
open Sg Sg.FindPoint Sg.LinearSolve Sg.Spec Sg.FindOverlap Sg.NodeInterp Sg.Conserve

set_option linter.unusedSectionVars false
variable {F : Type} [Zero F] [One F] [Add F] [Sub F] [Mul F] [Div F] [Neg F] [LT F] [DecidableLT F]
  [LE F] [DecidableLE F] [DecidableEq F] [NatCast F] [IntCast F] [FOps F]

/-- A number stored in a variable of type `int` by way of a `size_t`. -/
def narrow (x : Int) : Int := SideIterator.toInt (toSize x)

/-- Numbers that fit are kept. -/
theorem narrow_id {x : Int} (h : inI32 x) : narrow x = x := by
  unfold narrow SideIterator.toInt toSize
  obtain ⟨h1, h2⟩ := h
  split_ifs <;> omega

/-- The object with vectors and integers as the one of the model without sizes. -/
def toOverlap (o : ROverlap F) : Overlap F :=
  { finder := asFinder 2 o.finder
    srcNodeDims := fun j => (o.srcNodeDims.getD j 0).toNat
    srcCellProdDims := fun j => (o.srcCellProdDims.getD j 0).toNat
    srcCellFlatInds := o.srcCellFlatInds
    polyPoints := o.polyPoints
    numPolyPoints := o.numPolyPoints.getD 0
    eps := o.eps
    gridSet := !o.srcNodeDims.isEmpty
    polySet := o.numPolyPoints.isSome }

/-- `o` is the object with vectors and integers that corresponds to `m`: the cell numbers are those of `m`, as far as they fit. -/
def Shows (o : ROverlap F) (m : Overlap F) : Prop := toOverlap o = { m with srcCellFlatInds := m.srcCellFlatInds.map narrow }

/-- Calls as they are made, with the memory behind the pointers. -/
inductive RawCall (F : Type)
  | setSrcGrid (dims periodicity : List Int) (coords : List (List F))
  | setPolygonPoints (numPoints : Int) (coords : List F)
  | findSrcCellIndices

/-- Calls as they are meant. -/
inductive MeantCall (F : Type)
  | setSrcGrid (dims : Fin 2 → Nat) (per : Fin 2 → Int) (coords : Fin 2 → Nat → F)
  | setPolygonPoints (numPoints : Nat) (coords : Nat → F)
  | findSrcCellIndices

/-- The memory holds what is meant: a grid with a node at least along each axis and no more than `INT_MAX` nodes, or a polygon with
any number of points from zero. -/
inductive Holds : RawCall F → MeantCall F → Prop
  | grid {dims : Fin 2 → Nat} {per : Fin 2 → Int} {coords : Fin 2 → Nat → F} {D P : List Int} {C : List (List F)}
      (hp : Passed dims per coords D P C) (h1 : ∀ i, 1 ≤ dims i) (htot : dims 0 * dims 1 ≤ 2147483647) :
      Holds (.setSrcGrid D P C) (.setSrcGrid dims per coords)
  | polygon {np : Nat} {pc : Nat → F} {A : List F} (hn : np ≤ 2147483647) (hA : ∀ k < 2 * np, A[k]? = some (pc k)) :
      Holds (.setPolygonPoints (np : Int) A) (.setPolygonPoints np pc)
  | find : Holds .findSrcCellIndices .findSrcCellIndices

/-- Effect of a call. -/
def RawCall.exec (g : Gels F) (o : ROverlap F) : RawCall F → Call' (ROverlap F)
  | .setSrcGrid D P C => o.setSrcGrid D P C
  | .setPolygonPoints np A => o.setPolygonPoints np A
  | .findSrcCellIndices => lift' (o.findSrcCellIndices g)

def MeantCall.exec (g : Gels F) (m : Overlap F) : MeantCall F → Cxx (Overlap F)
  | .setSrcGrid dims per coords => .ok (m.setSrcGrid dims per coords)
  | .setPolygonPoints np pc => .ok (m.setPolygonPoints np pc)
  | .findSrcCellIndices => m.findSrcCellIndices g

/-- Effect of a sequence of calls. -/
def runRaw (g : Gels F) : ROverlap F → List (RawCall F) → Call' (ROverlap F)
  | o, [] => .ok o
  | o, c :: cs => do let o ← c.exec g o; runRaw g o cs

def runMeant (g : Gels F) : Overlap F → List (MeantCall F) → Cxx (Overlap F)
  | m, [] => .ok m
  | m, c :: cs => do let m ← c.exec g m; runMeant g m cs

/-! ### What is true of every object the calls lead to -/

structure RepOk (o : ROverlap F) : Prop where
  fresh : o.srcNodeDims = [] → ∃ m, Sized m o.finder
  dims : o.srcNodeDims = [] ∨ ∃ d0 d1 : Nat, o.srcNodeDims = [(d0 : Int), (d1 : Int)] ∧ o.srcCellProdDims = [(d1 : Int), 1] ∧ 1 ≤ d0 ∧
    1 ≤ d1 ∧ d0 * d1 ≤ 2147483647 ∧ Sized 2 o.finder
  num : ∀ n, o.numPolyPoints = some n → n ≤ 2147483647
  eps : o.eps = 1 / ((100 : Nat) : F)

theorem RepOk.sized {o : ROverlap F} (h : RepOk o) : ∃ m, Sized m o.finder := by
  rcases h.dims with h0 | ⟨_, _, _, _, _, _, _, hs⟩
  · exact h.fresh h0
  · exact ⟨2, hs⟩

theorem repOk_new : RepOk (ROverlap.new : ROverlap F) :=
  ⟨fun _ => ⟨0, (C104_new (n := 0) _ _).1⟩, .inl rfl, fun n h => (by cases h), rfl⟩

theorem shows_new : Shows (ROverlap.new : ROverlap F) FindOverlap.new := by
  unfold Shows toOverlap ROverlap.new FindOverlap.new
  simp only [(C104_new (n := 2) (100 : Int) (1 / ((1000000 : Nat) : F))).2]
  simp

theorem setSrcGrid_shows (hcast : ∀ k : Nat, ((k : Int) : F) = (k : F)) {o : ROverlap F} {m : Overlap F} (ho : RepOk o) (hsh : Shows o m)
    {dims : Fin 2 → Nat} {per : Fin 2 → Int} {coords : Fin 2 → Nat → F} {D P : List Int} {C : List (List F)}
    (hp : Passed dims per coords D P C) (h1 : ∀ i, 1 ≤ dims i) (htot : dims 0 * dims 1 ≤ 2147483647) :
    ∃ o', o.setSrcGrid D P C = .ok o' ∧ RepOk o' ∧ Shows o' (m.setSrcGrid dims per coords) := by
  obtain ⟨k, hs⟩ := ho.sized
  obtain ⟨f, ef, sf, eqf, -⟩ := C104_setGrid hcast hs (n := 2) (by decide) (by decide) hp h1 (by rw [Fin.prod_univ_two]; exact htot)
  have b1 : dims 1 ≤ 2147483647 := (Nat.le_mul_of_pos_left _ (h1 0)).trans htot
  have hc0 : D[0]? = some (dims 0 : Int) := hp.counts 0
  have hc1 : D[1]? = some (dims 1 : Int) := hp.counts 1
  have him : imul 1 (dims 1 : Int) = .ok (dims 1 : Int) := by
    unfold imul chk
    rw [if_pos (by unfold inI32; omega), one_mul]
  refine ⟨{ o with finder := f, srcNodeDims := [(dims 0 : Int), (dims 1 : Int)], srcCellProdDims := [(dims 1 : Int), 1] }, ?_, ?_, ?_⟩
  · unfold ROverlap.setSrcGrid vget
    rw [show ((2 : Nat) : Int) = 2 from rfl] at ef
    simp only [hc0, hc1, him, ef, lift', bind, Except.bind]
    rfl
  · exact ⟨fun h => absurd h (by simp), .inr ⟨_, _, rfl, rfl, h1 0, h1 1, htot, sf⟩, ho.num, ho.eps⟩
  · unfold Shows at hsh ⊢
    have hf : asFinder 2 o.finder = m.finder := congrArg Overlap.finder hsh
    have hfl : o.srcCellFlatInds = m.srcCellFlatInds.map narrow := congrArg Overlap.srcCellFlatInds hsh
    have h3 : o.polyPoints = m.polyPoints := congrArg Overlap.polyPoints hsh
    have h4 : o.numPolyPoints.getD 0 = m.numPolyPoints := congrArg Overlap.numPolyPoints hsh
    have h5 : o.eps = m.eps := congrArg Overlap.eps hsh
    have h6 : o.numPolyPoints.isSome = m.polySet := congrArg Overlap.polySet hsh
    unfold toOverlap Overlap.setSrcGrid
    simp only [eqf, hf, hfl, h3, h4, h5, h6, Overlap.mk.injEq, and_true, true_and]
    refine ⟨?_, ?_, rfl⟩ <;> funext j <;> fin_cases j <;> simp

theorem setPolygon_shows {o : ROverlap F} {m : Overlap F} (ho : RepOk o) (hsh : Shows o m) {np : Nat} {pc : Nat → F} {A : List F}
    (hn : np ≤ 2147483647) (hA : ∀ k < 2 * np, A[k]? = some (pc k)) :
    ∃ o', o.setPolygonPoints (np : Int) A = .ok o' ∧ RepOk o' ∧ Shows o' (m.setPolygonPoints np pc) := by
  have hts : toSize (np : Int) = np := toSize_nat (by omega)
  have hsm : smul np 2 = 2 * np := by unfold smul; rw [Nat.mod_eq_of_lt (by omega)]; omega
  have hidx : ∀ i < np, ∀ j < 2, sadd (smul 2 i) j = 2 * i + j := by
    intro i hi j hj
    unfold sadd smul
    rw [Nat.mod_eq_of_lt (show 2 * i < 18446744073709551616 by omega), Nat.mod_eq_of_lt (by omega)]
  obtain ⟨v, ev, hl, hv⟩ := forN_inv (fun k (v : List F) => v.length = 2 * np ∧ ∀ q < 2 * k, v[q]? = some (pc q))
    (fun i v => forN 2 v fun j v => do
      let c ← vget A (sadd (smul 2 i) j)
      vset v (sadd (smul 2 i) j) c) np (rsz o.polyPoints (2 * np) 0) ⟨rsz_length _ _ _, fun q hq => by omega⟩ (by
    intro i v hi ⟨hl, hv⟩
    obtain ⟨w, ew, hw, hw'⟩ := forN_inv (fun k (v : List F) => v.length = 2 * np ∧ ∀ q < 2 * i + k, v[q]? = some (pc q))
      (fun j v => do
        let c ← vget A (sadd (smul 2 i) j)
        vset v (sadd (smul 2 i) j) c) 2 v ⟨hl, hv⟩ (by
      intro j v hj ⟨hl, hv⟩
      rw [hidx i hi j hj]
      refine ⟨v.set (2 * i + j) (pc (2 * i + j)), ?_, by simpa using hl, ?_⟩
      · unfold vget vset
        rw [hA _ (by omega)]
        simp only [bind, Except.bind]
        rw [if_pos (by omega)]
      · intro q hq
        by_cases h : q = 2 * i + j
        · subst h
          rw [List.getElem?_set_self (by omega)]
        · rw [List.getElem?_set_ne (by omega)]
          exact hv q (by omega))
    exact ⟨w, ew, hw, fun q hq => hw' q (by omega)⟩)
  have hveq : v = (List.range (2 * np)).map pc := by
    apply List.ext_getElem?
    intro q
    by_cases hq : q < 2 * np
    · rw [hv q hq]; simp [hq]
    · rw [List.getElem?_eq_none (by omega), List.getElem?_eq_none (by simp; omega)]
  refine ⟨{ o with numPolyPoints := some np, polyPoints := v }, ?_, ⟨ho.fresh, ho.dims, ?_, ho.eps⟩, ?_⟩
  · unfold ROverlap.setPolygonPoints
    rw [hts]
    dsimp only
    rw [hsm, resize_ok (by omega)]
    simp only [bind, Except.bind]
    simp only [bind, Except.bind] at ev
    rw [ev]
    rfl
  · intro n h
    cases h
    exact hn
  · unfold Shows at hsh ⊢
    have hf : asFinder 2 o.finder = m.finder := congrArg Overlap.finder hsh
    have hfl : o.srcCellFlatInds = m.srcCellFlatInds.map narrow := congrArg Overlap.srcCellFlatInds hsh
    have h3 := congrArg Overlap.srcNodeDims hsh
    have h4 := congrArg Overlap.srcCellProdDims hsh
    have h5 : o.eps = m.eps := congrArg Overlap.eps hsh
    have h6 := congrArg Overlap.gridSet hsh
    simp only [toOverlap] at h3 h4 h6
    unfold toOverlap Overlap.setPolygonPoints
    simp only [hf, hfl, h3, h4, h5, h6, hveq]
    rfl

/-! ### Searching -/

theorem loop_same (g : Gels F) {n : Nat} : ∀ (k : Nat) (s : Finder F n) (c : Int) (s' : Finder F n),
    searchLoop g k s = .ok (c, s') → SameGrid s s'
  | 0, s, c, s', h => by
    simp only [searchLoop, Except.ok.injEq, Prod.mk.injEq] at h
    obtain ⟨_, rfl⟩ := h
    exact sameGrid_refl _
  | k + 1, s, c, s', h => by
    unfold searchLoop at h
    obtain ⟨⟨c1, s1⟩, h1, h⟩ := bind_ok_inv h
    have hs := (sameGrid_next g s c1 s1 h1).1
    dsimp only at h
    split_ifs at h
    · exact sameGrid_trans hs (loop_same g k s1 c s' h)
    · simp only [pure, Except.pure, Except.ok.injEq, Prod.mk.injEq] at h
      obtain ⟨_, rfl⟩ := h
      exact hs

theorem asFinder_putBack {s : Raw F} {f : Finder F 2} (h : SameGrid (asFinder 2 s) f) : asFinder 2 (putBack s f) = f := by
  obtain ⟨h1, h2, h3, h4, h5, h6⟩ := h
  obtain ⟨_, _, _, _, _, _, _, _, _, _, _, _⟩ := f
  simp only [asFinder] at h1 h2 h3 h4 h5 h6
  subst h1 h2 h3 h4 h5 h6
  unfold asFinder putBack
  simp only [Finder.mk.injEq, true_and, and_true]
  refine ⟨?_, ?_⟩ <;> funext i <;> fin_cases i <;> simp

theorem sized_putBack {s : Raw F} (h : Sized 2 s) (f : Finder F 2) : Sized 2 (putBack s f) :=
  ⟨h.coords, h.xmins, h.xmaxs, h.prodDims, h.nodeProdDims, h.indexPeriodicity, h.dims, rfl, rfl, h.jacMatrix, h.rhs⟩

theorem toSize_add (x y : Int) : sadd (sadd 0 (toSize x)) (toSize y) = toSize (x + y) := by
  unfold sadd toSize
  omega

theorem cellIndxR_eq (o : Overlap F) (d1 : Nat) (hpd : o.srcCellProdDims = fun j => if j = 0 then d1 else 1) (inds : List Int) :
    cellIndxR [(d1 : Int), 1] inds = (o.cellIndx inds).map narrow := by
  unfold cellIndxR Overlap.cellIndx
  rw [hpd]
  simp only [forN, forFrom, vget, List.getElem?_cons_zero, List.getElem?_cons_succ, bind, Except.bind, pure, Except.pure]
  cases inds[0]? with
  | none => rfl
  | some i0 =>
    simp only [if_true]
    cases imul (d1 : Int) i0 with
    | error e => rfl
    | ok p0 =>
      dsimp only
      cases inds[1]? with
      | none => rfl
      | some i1 =>
        dsimp only
        rw [if_neg (by decide), Nat.cast_one]
        cases imul 1 i1 with
        | error e => rfl
        | ok p1 =>
          simp only [toSize_add, Except.map, narrow, zero_add]

theorem collect_narrow {f f' : Nat → Cxx Int} (h : ∀ i, f' i = (f i).map narrow) (n : Nat) :
    forN n [] (fun i l => do let k ← f' i; return l ++ [k]) =
      (forN n [] (fun i (l : List Int) => do let k ← f i; return l ++ [k])).map (List.map narrow) :=
  forN_map (List.map narrow) (fun i (l : List Int) => do let k ← f i; return l ++ [k])
    (fun i l => do let k ← f' i; return l ++ [k]) (by
    intro k s
    rw [h]
    cases f k with
    | error e => rfl
    | ok x => simp [Except.map, bind, Except.bind, pure, Except.pure]) n []

theorem find_shows (g : Gels F) (hcast : ∀ k : Nat, ((k : Int) : F) = (k : F)) {o : ROverlap F} {m : Overlap F} (ho : RepOk o)
    (hsh : Shows o m) :
    Cxx.Rel (fun o' m' => RepOk o' ∧ Shows o' m') (o.findSrcCellIndices g) (m.findSrcCellIndices g) := by
  have hf : asFinder 2 o.finder = m.finder := congrArg Overlap.finder hsh
  have h1 : (fun j : Fin 2 => (o.srcNodeDims.getD j 0).toNat) = m.srcNodeDims := congrArg Overlap.srcNodeDims hsh
  have h2 : (fun j : Fin 2 => (o.srcCellProdDims.getD j 0).toNat) = m.srcCellProdDims := congrArg Overlap.srcCellProdDims hsh
  have h3 : o.polyPoints = m.polyPoints := congrArg Overlap.polyPoints hsh
  have h4 : o.numPolyPoints.getD 0 = m.numPolyPoints := congrArg Overlap.numPolyPoints hsh
  have h5 : o.eps = m.eps := congrArg Overlap.eps hsh
  have h6 : (!o.srcNodeDims.isEmpty) = m.gridSet := congrArg Overlap.gridSet hsh
  have h7 : o.numPolyPoints.isSome = m.polySet := congrArg Overlap.polySet hsh
  rcases ho.dims with h0 | ⟨d0, d1, hd, hpd, p0, p1, hp, hsz⟩
  · right
    refine ⟨.outOfBounds, ?_, ?_⟩
    · unfold ROverlap.findSrcCellIndices ROverlap.findFloatIndexBoxOfPolygon
      rw [h0]; rfl
    · unfold Overlap.findSrcCellIndices Overlap.findFloatIndexBoxOfPolygon
      rw [← h6, h0]; rfl
  have b0 : d0 ≤ 2147483647 := (Nat.le_mul_of_pos_right _ p1).trans hp
  have b1 : d1 ≤ 2147483647 := (Nat.le_mul_of_pos_left _ p0).trans hp
  have hsub : ∀ d : Nat, 1 ≤ d → d ≤ 2147483647 → isub (d : Int) 1 = .ok ((d - 1 : Nat) : Int) := by
    intro d h h'
    unfold isub chk
    rw [if_pos (by unfold inI32; omega), Nat.cast_sub h]; rfl
  have e0 : m.srcNodeDims 0 = d0 := by rw [← h1, hd]; simp
  have e1 : m.srcNodeDims 1 = d1 := by rw [← h1, hd]; simp
  have epd : m.srcCellProdDims = fun j => if j = 0 then d1 else 1 := by
    rw [← h2, hpd]; funext j; fin_cases j <;> simp
  have hm : (fun j : Fin 2 => ((if j = 0 then ((d0 - 1 : Nat) : Int) else ((d1 - 1 : Nat) : Int) : Int) : F)) =
      fun j => ((m.srcNodeDims j - 1 : Nat) : F) := by
    funext j; fin_cases j
    · simp [e0, hcast]
    · simp [e1, hcast]
  cases hn : o.numPolyPoints with
  | none =>
    right
    refine ⟨.uninit, ?_, ?_⟩
    · unfold ROverlap.findSrcCellIndices ROverlap.findFloatIndexBoxOfPolygon
      rw [hd, hn]
      simp only [vget, List.getElem?_cons_zero, List.getElem?_cons_succ, hsub d0 p0 b0, hsub d1 p1 b1, bind, Except.bind]
    · unfold Overlap.findSrcCellIndices Overlap.findFloatIndexBoxOfPolygon
      rw [← h6, ← h7, hd, hn]; rfl
  | some n =>
  have hn4 : m.numPolyPoints = n := by rw [← h4, hn]; rfl
  have hnle := ho.num n hn
  have hbox : o.findFloatIndexBoxOfPolygon g = m.findFloatIndexBoxOfPolygon g := by
    unfold ROverlap.findFloatIndexBoxOfPolygon Overlap.findFloatIndexBoxOfPolygon
    rw [← h6, ← h7, hd, hn, hn4]
    simp only [vget, List.getElem?_cons_zero, List.getElem?_cons_succ, hsub d0 p0 b0, hsub d1 p1 b1, bind, Except.bind, hm]
    have hpl : plane o.finder = m.finder := hf
    rw [hpl]
    simp only [List.isEmpty_cons, Bool.not_false, Bool.not_true, Option.isSome_some, Bool.false_eq_true, if_false]
    apply forN_congr
    intro k s hk
    unfold pointR Overlap.point
    have hi : ∀ j : Fin 2, smul k 2 + (j : Nat) = k * 2 + j := by
      intro j; unfold smul; rw [Nat.mod_eq_of_lt (by omega)]
    have hst : startIndicesI (F := F) (d0 : Int) (d1 : Int) = FindOverlap.startIndices m.srcNodeDims := by
      funext j
      unfold startIndicesI FindOverlap.startIndices
      simp only [hcast, e0, e1]
    have hup : ∀ (d : Fin 2 → F) (c : Corners F), c.updateI (fun j : Fin 2 => if j = 0 then ((d0 - 1 : Nat) : Int) else ((d1 - 1 : Nat) : Int)) d =
        c.update m.srcNodeDims d := by
      intro d c
      unfold Corners.updateI Corners.update
      simp only [Corners.mk.injEq, true_and]
      funext j
      have := congrFun hm j
      rw [this]
    simp only [hi, hst, hup, h3]
  have hbi : ∀ (c : Corners F) (j : Fin 2), boxIndsR o.eps ((m.srcNodeDims j : Nat) : Int) (c.lo j) (c.hi j) = m.boxInds c j := by
    intro c j
    have hj : 1 ≤ m.srcNodeDims j ∧ m.srcNodeDims j ≤ 2147483647 := by
      fin_cases j
      · exact ⟨e0 ▸ p0, e0 ▸ b0⟩
      · exact ⟨e1 ▸ p1, e1 ▸ b1⟩
    unfold boxIndsR Overlap.boxInds
    rw [hsub _ hj.1 hj.2, h5]
    simp only [bind, Except.bind]
    rw [Nat.cast_sub hj.1, Nat.cast_one]
    cases FOps.floorI (c.lo j) <;> cases ceilI (c.hi j + m.eps) <;> rfl
  have hb0 := fun c => hbi c 0
  have hb1 := fun c => hbi c 1
  rw [e0] at hb0
  rw [e1] at hb1
  unfold ROverlap.findSrcCellIndices Overlap.findSrcCellIndices
  rw [hbox, hd]
  cases hq : m.findFloatIndexBoxOfPolygon g with
  | error e => right; exact ⟨e, rfl, rfl⟩
  | ok r =>
  obtain ⟨f, c⟩ := r
  have hsame : SameGrid m.finder f := by
    unfold Overlap.findFloatIndexBoxOfPolygon at hq
    split_ifs at hq
    refine forN_inv_ok (fun _ (s : Finder F 2 × Corners F) => SameGrid m.finder s.1) _ _ _ _ (sameGrid_refl _) ?_ hq
    intro k s s' _ hs hp
    unfold Overlap.point at hp
    obtain ⟨t, _, hp⟩ := bind_ok_inv hp
    obtain ⟨⟨c1, f1⟩, hl, hp⟩ := bind_ok_inv hp
    simp only [pure, Except.pure, Except.ok.injEq] at hp
    subst hp
    have := loop_same g _ _ _ _ hl
    exact sameGrid_trans hs ⟨this.coords, this.bounds, this.per, this.dims, this.nitermax, this.tolpos⟩
  simp only [bind, Except.bind, vget, List.getElem?_cons_zero, List.getElem?_cons_succ, hb0, hb1]
  cases m.boxInds c 0 with
  | error e => right; exact ⟨e, rfl, rfl⟩
  | ok x0 =>
  dsimp only
  cases m.boxInds c 1 with
  | error e => right; exact ⟨e, rfl, rfl⟩
  | ok x1 =>
  dsimp only
  cases BoxIterator.new [x0, x1] with
  | error e => right; exact ⟨e, rfl, rfl⟩
  | ok bx =>
  dsimp only
  have hcol := collect_narrow (f := fun i => do let e ← bx.getElement i; m.cellIndx e)
    (f' := fun i => do let e ← bx.getElement i; cellIndxR o.srcCellProdDims e) (by
    intro i
    rw [hpd]
    cases bx.getElement i with
    | error e => rfl
    | ok e => exact cellIndxR_eq m d1 epd e) bx.getNumberOfElements.toNat
  simp only [bind_assoc] at hcol
  simp only [bind, Except.bind] at hcol
  rw [hcol]
  cases forN bx.getNumberOfElements.toNat ([] : List Int) _ with
  | error e => right; exact ⟨e, rfl, rfl⟩
  | ok inds =>
  left
  refine ⟨_, _, rfl, rfl, ⟨fun h => absurd h (by simp), .inr ⟨d0, d1, rfl, hpd, p0, p1, hp, sized_putBack hsz f⟩, ho.num, ho.eps⟩, ?_⟩
  unfold Shows toOverlap
  simp only [asFinder_putBack (show SameGrid (asFinder 2 o.finder) f by rw [hf]; exact hsame), ← h1, h2, h3, h4, h5, ← h6, h7, hd]

/-- How the outcome of a call with memory corresponds to the outcome of the call that is meant. -/
def Agree (x : Call' (ROverlap F)) (y : Cxx (Overlap F)) : Prop :=
  (∃ o m, x = .ok o ∧ y = .ok m ∧ Shows o m) ∨ ∃ u, x = .error (.undefined u) ∧ y = .error u

theorem run_agree (g : Gels F) (hcast : ∀ k : Nat, ((k : Int) : F) = (k : F)) {rcs : List (RawCall F)} {mcs : List (MeantCall F)}
    (h : List.Forall₂ Holds rcs mcs) : ∀ {o : ROverlap F} {m : Overlap F}, RepOk o → Shows o m →
      (∃ o' m', runRaw g o rcs = .ok o' ∧ runMeant g m mcs = .ok m' ∧ RepOk o' ∧ Shows o' m') ∨
        ∃ u, runRaw g o rcs = .error (.undefined u) ∧ runMeant g m mcs = .error u := by
  induction h with
  | nil => intro o m ho hs; exact .inl ⟨o, m, rfl, rfl, ho, hs⟩
  | cons hc _ ih =>
    intro o m ho hs
    cases hc with
    | grid hp h1 htot =>
      obtain ⟨o', e, ho', hs'⟩ := setSrcGrid_shows hcast ho hs hp h1 htot
      unfold runRaw runMeant RawCall.exec MeantCall.exec
      dsimp only
      rw [e]
      exact ih ho' hs'
    | polygon hn hA =>
      obtain ⟨o', e, ho', hs'⟩ := setPolygon_shows ho hs hn hA
      unfold runRaw runMeant RawCall.exec MeantCall.exec
      dsimp only
      rw [e]
      exact ih ho' hs'
    | find =>
      unfold runRaw runMeant RawCall.exec MeantCall.exec
      dsimp only
      rcases find_shows g hcast ho hs with ⟨o', m', e, e', ho', hs'⟩ | ⟨u, e, e'⟩
      · rw [e, e']
        exact ih ho' hs'
      · rw [e, e']
        exact .inr ⟨u, rfl, rfl⟩

/-- **C125.** Any sequence of calls on a new object, in any order and with any repetition, with memory that holds what is meant, has the
outcome that the model without sizes has: no call throws, the same calls are undefined, and what is stored is the same; the numbers of the
cells are stored in an `int`. -/
theorem C125_history (g : Gels F) (hcast : ∀ k : Nat, ((k : Int) : F) = (k : F)) {rcs : List (RawCall F)} {mcs : List (MeantCall F)}
    (h : List.Forall₂ Holds rcs mcs) : Agree (runRaw g ROverlap.new rcs) (runMeant g FindOverlap.new mcs) := by
  rcases run_agree g hcast h repOk_new shows_new with ⟨o, m, e, e', _, hs⟩ | h
  · exact .inl ⟨o, m, e, e', hs⟩
  · exact .inr h

/-- **C125.** A negative number of points makes the call throw, on any object and for any memory. -/
theorem C125_negative_points (o : ROverlap F) {np : Int} (h : inI32 np) (h0 : np < 0) (A : List F) :
    o.setPolygonPoints np A = .error .lengthError := by
  have h1 := h.1
  have hs : smul (toSize np) 2 = (18446744073709551616 + 2 * np).toNat := by
    unfold smul toSize
    omega
  unfold ROverlap.setPolygonPoints
  dsimp only
  unfold resize
  rw [hs, if_neg (by omega)]
  rfl

/-- **C125.** Memory with fewer than two numbers per point is read past its end. -/
theorem C125_short_points (o : ROverlap F) {np : Nat} (hn : np ≤ 2147483647) {A : List F} (hA : A.length < 2 * np) :
    o.setPolygonPoints (np : Int) A = .error (.undefined .outOfBounds) := by
  have hts : toSize (np : Int) = np := toSize_nat (by omega)
  have hsm : smul np 2 = 2 * np := by unfold smul; rw [Nat.mod_eq_of_lt (by omega)]; omega
  have hidx : ∀ i < np, ∀ j < 2, sadd (smul 2 i) j = 2 * i + j := by
    intro i hi j hj
    unfold sadd smul
    rw [Nat.mod_eq_of_lt (show 2 * i < 18446744073709551616 by omega), Nat.mod_eq_of_lt (by omega)]
  have hloop : forN np (rsz o.polyPoints (2 * np) 0) (fun i v => forN 2 v fun j v => do
      let c ← vget A (sadd (smul 2 i) j)
      vset v (sadd (smul 2 i) j) c) = .error .outOfBounds := by
    rcases forN_inv_or (fun v : List F => v.length = 2 * np) (fun u => u = .outOfBounds) (fun i v => forN 2 v fun j v => do
      let c ← vget A (sadd (smul 2 i) j)
      vset v (sadd (smul 2 i) j) c) np (rsz o.polyPoints (2 * np) 0) (rsz_length _ _ _) (by
        intro i v hi hv
        refine forN_inv_or (fun v : List F => v.length = 2 * np) (fun u => u = .outOfBounds) _ 2 v hv ?_
        intro j v hj hv
        rw [hidx i hi j hj]
        unfold vget vset
        cases A[2 * i + j]? with
        | none => exact .inr ⟨_, rfl, rfl⟩
        | some c =>
          left
          refine ⟨v.set (2 * i + j) c, ?_, by simpa using hv⟩
          show (if 2 * i + j < v.length then _ else _) = _
          rw [if_pos (by omega)]) with ⟨v, e, _⟩ | ⟨u, e, hu⟩
    · exfalso
      have hb := forN_inv_ok (fun k (_ : List F) => 2 * k ≤ A.length) (fun i v => forN 2 v fun j v => do
        let c ← vget A (sadd (smul 2 i) j)
        vset v (sadd (smul 2 i) j) c) np _ v (by omega) (by
        intro i v v' hi hk hv
        have := forN_inv_ok (fun k (_ : List F) => 2 * i + k ≤ A.length) (fun j v => do
          let c ← vget A (sadd (smul 2 i) j)
          vset v (sadd (smul 2 i) j) c) 2 v v' (by omega) (by
          intro j v v' hj _ hv
          rw [hidx i hi j hj] at hv
          obtain ⟨c, hc, _⟩ := bind_ok_inv hv
          unfold vget at hc
          have : 2 * i + j < A.length := by
            by_contra h
            rw [List.getElem?_eq_none (by omega)] at hc
            cases hc
          omega) hv
        omega) e
      omega
    · rw [e, hu]
  unfold ROverlap.setPolygonPoints
  rw [hts]
  dsimp only
  rw [hsm, resize_ok (by omega)]
  simp only [bind, Except.bind] at hloop ⊢
  rw [hloop]
  rfl

/-- **C125.** A grid is refused as it is by the finder: too many nodes are undefined behaviour, one negative count makes the call throw. -/
theorem C125_refused (o : ROverlap F) {d0 d1 : Nat} (h0 : 1 ≤ d0) (h1 : 1 ≤ d1) (b0 : d0 ≤ 2147483647) (b1 : d1 ≤ 2147483647)
    {P : List Int} (hP : 2 ≤ P.length) (C : List (List F)) :
    (2147483647 < d0 * d1 → o.setSrcGrid [(d0 : Int), (d1 : Int)] P C = .error (.undefined .signedOverflow)) ∧
    (d0 * d1 ≤ 2147483647 → o.setSrcGrid [-(d0 : Int), (d1 : Int)] P C = .error .lengthError ∧
      o.setSrcGrid [(d0 : Int), -(d1 : Int)] P C = .error .lengthError) := by
  have him : ∀ x : Int, inI32 x → imul 1 x = .ok x := by
    intro x hx
    unfold imul chk
    rw [one_mul, if_pos hx]
  have step : ∀ (x y : Int), inI32 y → ∀ e, o.finder.setGrid 2 [x, y] P C = .error e → o.setSrcGrid [x, y] P C = .error e := by
    intro x y hy e h
    unfold ROverlap.setSrcGrid vget
    simp only [List.getElem?_cons_zero, List.getElem?_cons_succ, him y hy, lift', bind, Except.bind, h]
  constructor
  · intro h
    refine step _ _ (by unfold inI32; omega) _ ?_
    exact C104_too_many (n := 2) (dims := ![d0, d1]) o.finder (by decide) (by decide) C
      (by intro i; fin_cases i <;> rfl) hP (by intro i; fin_cases i <;> simpa) (by rw [Fin.prod_univ_two]; exact h)
  · intro h
    have hz : ((d0 : Int) * (d1 : Int)) ≤ 2147483647 := by exact_mod_cast h
    have hz0 : 0 < ((d0 : Int) * (d1 : Int)) := by positivity
    constructor
    · refine step _ _ (by unfold inI32; omega) _ ?_
      refine C104_negative (n := 2) o.finder (by decide) (by decide) C (by simp) hP ?_ (by simp; omega)
      intro k hk
      interval_cases k <;> simp [inI32] <;> omega
    · refine step _ _ (by unfold inI32; omega) _ ?_
      refine C104_negative (n := 2) o.finder (by decide) (by decide) C (by simp) hP ?_ (by simp; omega)
      intro k hk
      interval_cases k <;> simp [inI32] <;> omega

section exact
variable {K : Type} [Field K] [LinearOrder K] [IsStrictOrderedRing K] [FloorRing K] [FOps K] [FOpsLaws K]

theorem elem_noPoints {a b : Nat} (ha : 3 ≤ a) (hb : 3 ≤ b) (hp : a * b ≤ 2147483647) {i : Nat} (hi : i < (a - 2) * (b - 2)) :
    (do
      let e ← (BoxIterator.Box.getElement { lowEnd := [(a : Int) - 1, (b : Int) - 1], dims := [2 - (a : Int), 2 - (b : Int)]
                                            dimProd := [2 - (b : Int), 1], numElems := (((a - 2) * (b - 2) : Nat) : Int) } i)
      cellIndxR [(b : Int), 1] e) = .ok (narrow (((a - 1 - i / (b - 2)) * b + (b - 1 + i % (b - 2)) : Nat) : Int)) := by
  have b0 : a ≤ 2147483647 := (Nat.le_mul_of_pos_right _ (by omega)).trans hp
  have b1 : b ≤ 2147483647 := (Nat.le_mul_of_pos_left _ (by omega)).trans hp
  obtain ⟨c, rfl⟩ : ∃ c, a = c + 2 := ⟨a - 2, by omega⟩
  obtain ⟨d, rfl⟩ : ∃ d, b = d + 2 := ⟨b - 2, by omega⟩
  simp only [Nat.add_sub_cancel] at hi ⊢
  have hq : i / d < c := Nat.div_lt_of_lt_mul (by rwa [Nat.mul_comm])
  have hr : i % d < d := Nat.mod_lt _ (by omega)
  have hcd : c * d ≤ (c + 2) * (d + 2) := Nat.mul_le_mul (by omega) (by omega)
  have t1 : ((i : Nat) : Int).tdiv (2 - ((d + 2 : Nat) : Int)) = -((i / d : Nat) : Int) := by
    rw [show (2 : Int) - ((d + 2 : Nat) : Int) = -(d : Int) by push_cast; ring, Int.tdiv_neg, Int.ofNat_tdiv]
  have t2 : ((i : Nat) : Int).tmod (2 - ((d + 2 : Nat) : Int)) = ((i % d : Nat) : Int) := by
    rw [show (2 : Int) - ((d + 2 : Nat) : Int) = -(d : Int) by push_cast; ring, Int.tmod_neg]
    rfl
  have t3 : (-((i / d : Nat) : Int)).tdiv (2 - ((c + 2 : Nat) : Int)) = 0 := by
    rw [show (2 : Int) - ((c + 2 : Nat) : Int) = -(c : Int) by push_cast; ring, Int.tdiv_neg, Int.neg_tdiv, neg_neg]
    show (((i / d) / c : Nat) : Int) = 0
    rw [Nat.div_eq_of_lt hq]
    rfl
  have t4 : (-((i / d : Nat) : Int)).tmod (2 - ((c + 2 : Nat) : Int)) = -((i / d : Nat) : Int) := by
    rw [show (2 : Int) - ((c + 2 : Nat) : Int) = -(c : Int) by push_cast; ring, Int.tmod_neg, Int.neg_tmod]
    congr 1
    show (((i / d) % c : Nat) : Int) = _
    rw [Nat.mod_eq_of_lt hq]
  have z0 : (2 : Int) - ((c + 2 : Nat) : Int) ≠ 0 := by push_cast; omega
  have z1 : (2 : Int) - ((d + 2 : Nat) : Int) ≠ 0 := by push_cast; omega
  have hdiv : i / d ≤ i := Nat.div_le_self _ _
  generalize i / d = q at *
  generalize i % d = r at *
  have hx : (((c + 2 : Nat) : Int) - 1 + -((q : Nat) : Int)) = ((c + 2 - 1 - q : Nat) : Int) := by omega
  have hy : (((d + 2 : Nat) : Int) - 1 + ((r : Nat) : Int)) = ((d + 2 - 1 + r : Nat) : Int) := by omega
  have hlo : 3 * (d + 2) ≤ (c + 2) * (d + 2) := Nat.mul_le_mul (by omega) le_rfl
  have hm : (c + 2 - 1 - q) * (d + 2) ≤ (c + 2) * (d + 2) := Nat.mul_le_mul (by omega) le_rfl
  generalize hu : c + 2 - 1 - q = u at *
  generalize hv : d + 2 - 1 + r = v at *
  have k1 : inI32 (-((q : Nat) : Int)) := by unfold inI32; omega
  have k2 : inI32 0 := by unfold inI32; omega
  have k3 : inI32 ((u : Nat) : Int) := by unfold inI32; omega
  have k4 : inI32 ((i : Nat) : Int) := by unfold inI32; omega
  have k5 : inI32 ((v : Nat) : Int) := by unfold inI32; omega
  unfold BoxIterator.Box.getElement cellIndxR
  have k6 : imul ((d + 2 : Nat) : Int) (u : Int) = .ok ((u * (d + 2) : Nat) : Int) := by
    unfold imul chk
    rw [show ((d + 2 : Nat) : Int) * (u : Int) = ((u * (d + 2) : Nat) : Int) by push_cast; ring]
    rw [if_pos (by unfold inI32; omega)]
  have k7 : imul 1 (v : Int) = .ok (v : Int) := by
    unfold imul chk
    rw [one_mul, if_pos k5]
  simp only [idiv, imod, iadd, chk, BoxIterator.getElementLoop, if_neg z0, if_neg z1, t1, t2, t3, t4, Int.tdiv_one, one_ne_zero, if_false, hx, hy,
    if_pos k1, if_pos k2, if_pos k3, if_pos k4, if_pos k5, forN, forFrom, vget, List.getElem?_cons_zero, List.getElem?_cons_succ, bind,
    Except.bind, pure, Except.pure, k6, k7, toSize_add]
  unfold narrow
  push_cast
  rfl

/-- The index box along an axis when the polygon has no points. -/
theorem boxInds_noPoints {d : Nat} (h : 1 ≤ d) (h' : d ≤ 2147483647) :
    boxIndsR ((1 : K) / ((100 : Nat) : K)) (d : Int) ((((d - 1 : Nat) : Int) : Int) : K) 0 = .ok ((d : Int) - 1, min 1 ((d : Int) - 1)) := by
  have hs : isub (d : Int) 1 = .ok ((d : Int) - 1) := by
    unfold isub chk
    rw [if_pos (by unfold inI32; omega)]
  have hfl : ⌊((((d - 1 : Nat) : Int) : Int) : K)⌋ = ((d - 1 : Nat) : Int) := Int.floor_intCast _
  have hf := FOpsLaws.floorI ((((d - 1 : Nat) : Int) : Int) : K) (by rw [hfl]; unfold inI32; omega)
  have hc : ⌊-((0 : K) + 1 / ((100 : Nat) : K))⌋ = -1 := by
    rw [Int.floor_eq_iff]
    norm_num
  have hf2 := FOpsLaws.floorI (-((0 : K) + 1 / ((100 : Nat) : K))) (by rw [hc]; unfold inI32; omega)
  unfold boxIndsR ceilI
  rw [hs, hf, hf2, hfl, hc]
  simp only [bind, Except.bind, Option.map_some, neg_neg]
  rw [if_pos (by omega)]
  congr 2
  · omega
  · split_ifs <;> omega

/-- **C125, a polygon without points**: after any calls, on a grid of `a` × `b` nodes, `(a - 2) * (b - 2)` numbers are reported, the first
of which is that of the last node. -/
theorem C125_no_points (g : Gels K) {rcs : List (RawCall K)} {mcs : List (MeantCall K)} (h : List.Forall₂ Holds rcs mcs) {o : ROverlap K}
    (hrun : runRaw g ROverlap.new rcs = .ok o) {dims : Fin 2 → Nat} {per : Fin 2 → Int} {coords : Fin 2 → Nat → K} {D P : List Int}
    {C : List (List K)} (hp : Passed dims per coords D P C) (h1 : ∀ i, 1 ≤ dims i) (htot : dims 0 * dims 1 ≤ 2147483647) (A : List K) :
    ∃ o1 o2 o3, o.setSrcGrid D P C = .ok o1 ∧ o1.setPolygonPoints 0 A = .ok o2 ∧ o2.findSrcCellIndices g = .ok o3 ∧
      o3.srcCellFlatInds = (List.range ((dims 0 - 2) * (dims 1 - 2))).map fun i =>
        narrow (((dims 0 - 1 - i / (dims 1 - 2)) * dims 1 + (dims 1 - 1 + i % (dims 1 - 2)) : Nat) : Int) := by
  have hcast : ∀ k : Nat, ((k : Int) : K) = (k : K) := fun k => Int.cast_natCast k
  obtain ⟨m, ho, hs⟩ : ∃ m, RepOk o ∧ Shows o m := by
    rcases run_agree g hcast h repOk_new shows_new with ⟨o', m', e, -, ho, hs⟩ | ⟨u, e, -⟩
    · rw [hrun] at e
      cases e
      exact ⟨m', ho, hs⟩
    · rw [hrun] at e
      cases e
  obtain ⟨o1, e1, ho1, hs1⟩ := setSrcGrid_shows hcast ho hs hp h1 htot
  obtain ⟨o2, e2, ho2, hs2⟩ := setPolygon_shows (np := 0) (pc := fun _ => 0) (A := A) ho1 hs1 (by omega) (by intro k hk; omega)
  have hn2 : o2.numPolyPoints = some 0 := by
    have h4 := congrArg Overlap.numPolyPoints hs2
    have h7 := congrArg Overlap.polySet hs2
    simp only [toOverlap, Overlap.setPolygonPoints] at h4 h7
    cases hq : o2.numPolyPoints with
    | none => rw [hq] at h7; cases h7
    | some n => rw [hq] at h4; simp at h4; rw [h4]
  have hgs : o2.srcNodeDims ≠ [] := by
    have h6 := congrArg Overlap.gridSet hs2
    simp only [toOverlap, Overlap.setPolygonPoints, Overlap.setSrcGrid] at h6
    intro h
    rw [h] at h6
    cases h6
  have hnd := congrArg Overlap.srcNodeDims hs2
  simp only [toOverlap, Overlap.setPolygonPoints, Overlap.setSrcGrid] at hnd
  rcases ho2.dims with h0 | ⟨a, b, hd, hpd, pa, pb, hab, -⟩
  · exact absurd h0 hgs
  have ea : dims 0 = a := by rw [← hnd, hd]; simp
  have eb : dims 1 = b := by rw [← hnd, hd]; simp
  rw [ea, eb]
  have ba : a ≤ 2147483647 := (Nat.le_mul_of_pos_right _ pb).trans hab
  have bb : b ≤ 2147483647 := (Nat.le_mul_of_pos_left _ pa).trans hab
  have hsub : ∀ d : Nat, 1 ≤ d → d ≤ 2147483647 → isub (d : Int) 1 = .ok ((d - 1 : Nat) : Int) := by
    intro d h h'
    unfold isub chk
    rw [if_pos (by unfold inI32; omega), Nat.cast_sub h]; rfl
  have hbox : o2.findFloatIndexBoxOfPolygon g = .ok (plane o2.finder,
      { lo := fun j => ((if j = 0 then ((a - 1 : Nat) : Int) else ((b - 1 : Nat) : Int) : Int) : K), hi := fun _ => 0 }) := by
    unfold ROverlap.findFloatIndexBoxOfPolygon
    rw [hd, hn2]
    simp only [vget, List.getElem?_cons_zero, List.getElem?_cons_succ, hsub a pa ba, hsub b pb bb, bind, Except.bind]
    rfl
  suffices hcol : ∃ bx, BoxIterator.new [((a : Int) - 1, min 1 ((a : Int) - 1)), ((b : Int) - 1, min 1 ((b : Int) - 1))] = .ok bx ∧
      bx.getNumberOfElements.toNat = (a - 2) * (b - 2) ∧
      ∀ i < (a - 2) * (b - 2), (do let e ← bx.getElement i; cellIndxR [(b : Int), 1] e) =
        .ok (narrow (((a - 1 - i / (b - 2)) * b + (b - 1 + i % (b - 2)) : Nat) : Int)) by
    obtain ⟨bx, hbx, hnum, hel⟩ := hcol
    have hc := collect_ok _ _ _ hel
    refine ⟨o1, o2, { o2 with finder := putBack o2.finder (plane o2.finder), srcCellFlatInds := _ }, e1, e2, ?_, rfl⟩
    unfold ROverlap.findSrcCellIndices
    rw [hbox, hd, hpd, ho2.eps]
    have hi0 := boxInds_noPoints (K := K) pa ba
    have hi1 := boxInds_noPoints (K := K) pb bb
    simp only [bind_assoc] at hc
    simp only [bind, Except.bind, vget, List.getElem?_cons_zero, List.getElem?_cons_succ, if_true, hi0] at hc ⊢
    rw [if_neg (by decide), hi1]
    dsimp only
    rw [hbx]
    dsimp only
    rw [hnum, hc]
    rfl
  have new2 : ∀ l0 u0 l1 u1 : Int, inI32 (u0 - l0) → inI32 (u1 - l1) → inI32 ((u0 - l0) * (u1 - l1)) →
      BoxIterator.new [(l0, u0), (l1, u1)] = .ok { lowEnd := [l0, l1], dims := [u0 - l0, u1 - l1], dimProd := [u1 - l1, 1]
                                                   numElems := (u0 - l0) * (u1 - l1) } := by
    intro l0 u0 l1 u1 i0 i1 i2
    simp only [BoxIterator.new, BoxIterator.mkDims, BoxIterator.mkNumElems, BoxIterator.mkDimProd, isub, imul, chk, if_pos i0, if_pos i1,
      one_mul, if_pos i2, bind, Except.bind, pure, Except.pure, vget, List.getElem?_cons_zero, List.map_cons, List.map_nil]
  by_cases hsmall : a ≤ 2 ∨ b ≤ 2
  · have hz : (a - 2) * (b - 2) = 0 := by
      rcases hsmall with h | h
      · rw [show a - 2 = 0 by omega, Nat.zero_mul]
      · rw [show b - 2 = 0 by omega, Nat.mul_zero]
    have hz' : (min 1 ((a : Int) - 1) - ((a : Int) - 1)) * (min 1 ((b : Int) - 1) - ((b : Int) - 1)) = 0 := by
      rcases hsmall with h | h
      · rw [show min 1 ((a : Int) - 1) - ((a : Int) - 1) = 0 by omega, zero_mul]
      · rw [show min 1 ((b : Int) - 1) - ((b : Int) - 1) = 0 by omega, mul_zero]
    refine ⟨_, new2 _ _ _ _ (by unfold inI32; omega) (by unfold inI32; omega) (by rw [hz']; decide), ?_, ?_⟩
    · show ((min 1 ((a : Int) - 1) - ((a : Int) - 1)) * (min 1 ((b : Int) - 1) - ((b : Int) - 1))).toNat = _
      rw [hz', hz]; rfl
    · intro i hi; omega
  · have ha : 3 ≤ a := by omega
    have hb : 3 ≤ b := by omega
    have q0 : min 1 ((a : Int) - 1) - ((a : Int) - 1) = 2 - (a : Int) := by omega
    have q1 : min 1 ((b : Int) - 1) - ((b : Int) - 1) = 2 - (b : Int) := by omega
    have q2 : (2 - (a : Int)) * (2 - (b : Int)) = (((a - 2) * (b - 2) : Nat) : Int) := by
      rw [Nat.cast_mul, Nat.cast_sub (by omega), Nat.cast_sub (by omega)]
      ring
    have q3 : (a - 2) * (b - 2) ≤ a * b := Nat.mul_le_mul (by omega) (by omega)
    have hnew := new2 ((a : Int) - 1) (min 1 ((a : Int) - 1)) ((b : Int) - 1) (min 1 ((b : Int) - 1)) (by unfold inI32; omega)
      (by unfold inI32; omega) (by rw [q0, q1, q2]; unfold inI32; omega)
    rw [q0, q1, q2] at hnew
    exact ⟨_, hnew, Int.toNat_natCast _, fun i hi => elem_noPoints ha hb hab hi⟩

/-- **C125, refuted for a polygon without points**: on a grid of at least 3 × 3 nodes it is reported to meet something, and the first
number is that of no cell (that of the cell `(i, j)` is `i * b + j`, see C42). -/
theorem C125_no_points_refuted (g : Gels K) {a b : Nat} (ha : 3 ≤ a) (hb : 3 ≤ b) (hab : a * b ≤ 2147483647) {per : Fin 2 → Int}
    {coords : Fin 2 → Nat → K} {D P : List Int} {C : List (List K)} (hp : Passed ![a, b] per coords D P C) (A : List K) :
    ∃ o1 o2 o3, (ROverlap.new : ROverlap K).setSrcGrid D P C = .ok o1 ∧ o1.setPolygonPoints 0 A = .ok o2 ∧
      o2.findSrcCellIndices g = .ok o3 ∧ o3.srcCellFlatInds.length = (a - 2) * (b - 2) ∧
      ((a : Int) * b - 1) ∈ o3.srcCellFlatInds ∧ ∀ i j : Nat, i + 1 < a → j + 1 < b → (a : Int) * b - 1 ≠ ((i * b + j : Nat) : Int) := by
  obtain ⟨o1, o2, o3, e1, e2, e3, h⟩ := C125_no_points g (rcs := []) (mcs := []) .nil rfl hp
    (by intro i; fin_cases i <;> simp <;> omega) (by simpa using hab) A
  simp only [Matrix.cons_val_zero, Matrix.cons_val_one] at h
  refine ⟨o1, o2, o3, e1, e2, e3, by rw [h]; simp, ?_, ?_⟩
  · rw [h, List.mem_map]
    have hpos : 0 < (a - 2) * (b - 2) := Nat.mul_pos (by omega) (by omega)
    refine ⟨0, List.mem_range.2 hpos, ?_⟩
    obtain ⟨c, rfl⟩ : ∃ c, a = c + 1 := ⟨a - 1, by omega⟩
    have e : ((c + 1 - 1 - 0 / (b - 2)) * b + (b - 1 + 0 % (b - 2)) : Nat) = (c + 1) * b - 1 := by
      rw [Nat.zero_div, Nat.zero_mod, Nat.add_mul]
      simp only [Nat.add_sub_cancel, Nat.sub_zero, Nat.add_zero, one_mul]
      omega
    have e' : ((((c + 1) * b - 1 : Nat)) : Int) = ((c + 1 : Nat) : Int) * b - 1 := by
      rw [Nat.cast_sub (by omega)]; push_cast; ring
    rw [e, narrow_id (by unfold inI32; omega), e']
  · intro i j hi hj he
    have h1 : (i + 1) * b ≤ a * b := Nat.mul_le_mul (by omega) le_rfl
    have h2 : i * b + b = (i + 1) * b := by ring
    have h3 : ((a * b : Nat) : Int) - 1 = ((i * b + j : Nat) : Int) := by rw [← he]; push_cast; ring
    omega

/-- **C125.** The cells that are reported through the interface for a polygon with points are the cells of the index box of C42, each
once. -/
theorem C125_cells (g : Gels K) (hg : KeepsSizes g) {dims : Fin 2 → Nat} (hd : ∀ i, 2 ≤ dims i) (htot : dims 0 * dims 1 ≤ 2147483647)
    {per : Fin 2 → Int} {coords : Fin 2 → Nat → K} {D P : List Int} {C : List (List K)} (hp : Passed dims per coords D P C) {np : Nat}
    (h1 : 1 ≤ np) (hn : np ≤ 2147483647) {A : List K} (hA : 2 * np ≤ A.length) :
    ∃ o1 o2 o3, (ROverlap.new : ROverlap K).setSrcGrid D P C = .ok o1 ∧ o1.setPolygonPoints (np : Int) A = .ok o2 ∧
      o2.findSrcCellIndices g = .ok o3 ∧ o3.srcCellFlatInds.Nodup ∧
      ∃ lo hi : Fin 2 → Nat, (∀ j, lo j ≤ hi j ∧ hi j + 1 ≤ dims j) ∧
        ∀ x, x ∈ o3.srcCellFlatInds ↔ ∃ i j : Nat, (lo 0 ≤ i ∧ i < hi 0) ∧ (lo 1 ≤ j ∧ j < hi 1) ∧ x = ((i * dims 1 + j : Nat) : Int) := by
  have hcast : ∀ k : Nat, ((k : Int) : K) = (k : K) := fun k => Int.cast_natCast k
  obtain ⟨o1, e1, ho1, hs1⟩ := setSrcGrid_shows hcast repOk_new shows_new hp (fun i => by have := hd i; omega) htot
  obtain ⟨o2, e2, ho2, hs2⟩ := setPolygon_shows (np := np) (pc := fun k => A.getD k 0) (A := A) ho1 hs1 hn (by
    intro k hk
    rw [List.getD_eq_getElem?_getD, List.getElem?_eq_getElem (by omega)]; rfl)
  obtain ⟨m, em, hnd, lo, hi, hlh, hmem⟩ := C42_valid_box g hg dims hd htot per coords [] _ rfl np h1 (fun k => A.getD k 0)
  rcases find_shows g hcast ho2 hs2 with ⟨o3, m', e3, e3', -, hs3⟩ | ⟨u, -, e3'⟩
  · rw [em] at e3'
    cases e3'
    have hfl : o3.srcCellFlatInds = m.srcCellFlatInds.map narrow := congrArg Overlap.srcCellFlatInds hs3
    have hid : m.srcCellFlatInds.map narrow = m.srcCellFlatInds := by
      conv_rhs => rw [← List.map_id m.srcCellFlatInds]
      refine List.map_congr_left fun x hx => narrow_id ?_
      obtain ⟨i, j, hi', hj', rfl⟩ := (hmem x).1 hx
      have a0 := hlh 0
      have a1 := hlh 1
      have : (i + 1) * dims 1 ≤ dims 0 * dims 1 := Nat.mul_le_mul (by omega) le_rfl
      have h2 : i * dims 1 + dims 1 = (i + 1) * dims 1 := by ring
      unfold inI32
      omega
    rw [hid] at hfl
    exact ⟨o1, o2, o3, e1, e2, e3, hfl ▸ hnd, lo, hi, hlh, fun x => by rw [hfl]; exact hmem x⟩
  · rw [em] at e3'
    cases e3'
end exact

/-! ### Non-vacuity -/

/-- A grid of 3 × 4 nodes in memory. -/
def mem34 : List (List ℚ) := [(List.range 12).map fun k => ((k / 4 : Nat) : ℚ), (List.range 13).map fun k => ((k % 4 : Nat) : ℚ)]

theorem passed34 : Passed ![3, 4] ![0, 0] unit34 [3, 4] [0, 0] mem34 where
  counts := by decide
  flags := by decide
  arrays := by
    intro i
    fin_cases i
    · exact ⟨_, rfl, by decide +kernel⟩
    · exact ⟨_, rfl, by decide +kernel⟩

/-- A polygon, a grid, a search, another polygon and a search. -/
def rawUse : List (RawCall ℚ) :=
  [.setPolygonPoints 1 [3 / 2, 5 / 2, 7], .setSrcGrid [3, 4] [0, 0] mem34, .findSrcCellIndices,
   .setPolygonPoints 3 [1 / 2, 1 / 2, 3 / 2, 1 / 2, 1, 3 / 2], .findSrcCellIndices]

def meantUse : List (MeantCall ℚ) :=
  [.setPolygonPoints 1 fun k => [3 / 2, 5 / 2].getD k 0, .setSrcGrid ![3, 4] ![0, 0] unit34, .findSrcCellIndices,
   .setPolygonPoints 3 fun k => [1 / 2, 1 / 2, 3 / 2, 1 / 2, 1, 3 / 2].getD k 0, .findSrcCellIndices]

example : List.Forall₂ Holds rawUse meantUse :=
  .cons (.polygon (by decide) (by decide +kernel)) <| .cons (.grid passed34 (by decide) (by decide)) <| .cons .find <|
    .cons (.polygon (by decide) (by decide +kernel)) <| .cons .find .nil

example : ((runRaw gels2 ROverlap.new rawUse).toOption.map fun o => o.srcCellFlatInds) = some [0, 1, 4, 5] := by decide +kernel

/-- A polygon without points on the grid: numbers 11 and 12, the last node and one after it. -/
example : ((runRaw gels2 ROverlap.new [.setSrcGrid [3, 4] [0, 0] mem34, .setPolygonPoints 0 [], .findSrcCellIndices]).toOption.map
    fun o => o.srcCellFlatInds) = some [11, 12] := by decide +kernel

/-- A search before the polygon is set, and one before the grid is. -/
example : (match runRaw gels2 ROverlap.new [.setSrcGrid [3, 4] [0, 0] mem34, .findSrcCellIndices] with
    | .error (.undefined .uninit) => true | _ => false) = true := by decide +kernel
example : (match runRaw gels2 ROverlap.new [.setPolygonPoints 0 ([] : List ℚ), .findSrcCellIndices] with
    | .error (.undefined .outOfBounds) => true | _ => false) = true := by decide +kernel

end Sg.Props
