import Verif.Proof.NodeInterpRun
/-
Property C133: nodal interpolation on the vectors, maps and pointers of the object.
-/
namespace Sg.Props
open Sg Sg.FindPoint Sg.LinearSolve Sg.NodeInterp Sg.Conserve
open Sg.SideIterator (toInt)

section generic
set_option linter.unusedSectionVars false
variable {F : Type} [Zero F] [One F] [Add F] [Sub F] [Mul F] [Div F] [Neg F] [LT F] [DecidableLT F]
  [LE F] [DecidableLE F] [DecidableEq F] [NatCast F] [IntCast F] [FOps F]

/-- A call with the memory behind the pointers. -/
inductive NodeMemCall (F : Type)
  | setDst (dims : List Int) (coords : List (List F))
  | setSrc (dims periodicity : List Int) (coords : List (List F))
  | weights
  | apply (srcData dstData : List F)

/-- A sequence of calls on an object with vectors and maps: what `apply` leaves in the result arrays, and the object. -/
def runNodeCalls (g : Gels F) : VNode F → List (NodeMemCall F) → Call' (List (List F) × VNode F)
  | o, [] => .ok ([], o)
  | o, .setDst D C :: cs => do
    let o ← o.setDstGrid D C
    runNodeCalls g o cs
  | o, .setSrc D P C :: cs => do
    let o ← o.setSrcGrid D P C
    runNodeCalls g o cs
  | o, .weights :: cs => do
    let o ← lift' (o.computeWeights g)
    runNodeCalls g o cs
  | o, .apply a b :: cs => do
    let r ← lift' (o.apply a b)
    let t ← runNodeCalls g o cs
    return (r :: t.1, t.2)

/-- The grids and data that are meant. -/
inductive NodeStep (F : Type)
  | setDst (dims : Fin 2 → Nat) (coords : Fin 2 → Nat → F)
  | setSrc (dims : Fin 2 → Nat) (per : Fin 2 → Int) (coords : Fin 2 → Nat → F)
  | weights
  | apply (srcData dstData : List F)

/-- The same calls in the model with unbounded integers and functions of the axis (properties C37 to C44). -/
def runNodeSteps (g : Gels F) : NodeInterp F → List (NodeStep F) → Cxx (List (List F) × NodeInterp F)
  | o, [] => .ok ([], o)
  | o, .setDst dims coords :: cs => runNodeSteps g (o.setDstGrid dims coords) cs
  | o, .setSrc dims per coords :: cs => runNodeSteps g (o.setSrcGrid dims per coords) cs
  | o, .weights :: cs => do
    let o ← o.computeWeights g
    runNodeSteps g o cs
  | o, .apply a b :: cs => do
    let r ← o.apply a b
    let t ← runNodeSteps g o cs
    return (r :: t.1, t.2)

/-- A call with memory that holds what is meant. -/
inductive NodeMeans : NodeStep F → NodeMemCall F → Prop
  | setDst {dims : Fin 2 → Nat} {coords : Fin 2 → Nat → F} {D : List Int} {C : List (List F)} : PassedDst dims coords D C →
      (∀ i, 1 ≤ dims i) → (∀ i, dims i ≤ 2147483647) → 2 * (dims 0 * dims 1) ≤ 1152921504606846975 →
      NodeMeans (.setDst dims coords) (.setDst D C)
  | setSrc {dims : Fin 2 → Nat} {per : Fin 2 → Int} {coords : Fin 2 → Nat → F} {D P : List Int} {C : List (List F)} :
      Passed dims per coords D P C → (∀ i, 1 ≤ dims i) → dims 0 * dims 1 ≤ 2147483647 →
      NodeMeans (.setSrc dims per coords) (.setSrc D P C)
  | weights : NodeMeans .weights .weights
  | apply {a b : List F} : a.length ≤ 1152921504606846975 → NodeMeans (.apply a b) (.apply a b)

/-- An object with vectors and the one of the model. -/
structure NodeRel (v : VNode F) (o : NodeInterp F) : Prop where
  sized : ∃ m, Sized m v.finder
  limit : v.finder.nitermax ≤ 2147483647
  finder : asFinder 2 v.finder = o.finder
  src : (v.src = none ∧ o.srcSet = false) ∨ ∃ r, v.src = some r ∧ o.srcSet = true ∧ (∃ dims : Fin 2 → Nat, HasGrid dims v.finder) ∧
    r.cellDims = ((o.srcCellDims 0 : Int), (o.srcCellDims 1 : Int))
  dst : (v.dst = none ∧ o.dstSet = false) ∨ ∃ r, v.dst = some r ∧ o.dstSet = true ∧ r.numPoints = o.dstNumPoints ∧
    r.coords = o.dstGrdCoords ∧ r.coords.length = 2 * r.numPoints ∧ 2 * r.numPoints ≤ 1152921504606846975
  table : v.weights = wrapTable o.weights
  small : Small o.weights

theorem nodeRel_new (nitermax : Int) (tolpos : F) (h : nitermax ≤ 2147483647) : NodeRel (VNode.new nitermax tolpos) (NodeInterp.new nitermax tolpos) := by
  refine ⟨⟨0, ?_⟩, h, ?_, .inl ⟨rfl, rfl⟩, .inl ⟨rfl, rfl⟩, rfl, fun e he => absurd he List.not_mem_nil⟩
  · constructor <;> rfl
  · rfl

theorem nodeRel_dst {v : VNode F} {o : NodeInterp F} (h : NodeRel v o) {dims : Fin 2 → Nat} {coords : Fin 2 → Nat → F} {D : List Int}
    {C : List (List F)} (hp : PassedDst dims coords D C) (h1 : ∀ i, 1 ≤ dims i) (hi : ∀ i, dims i ≤ 2147483647)
    (hs : 2 * (dims 0 * dims 1) ≤ 1152921504606846975) : ∃ v', v.setDstGrid D C = .ok v' ∧ NodeRel v' (o.setDstGrid dims coords) := by
  obtain ⟨a, ha, ha'⟩ := hp.arrays 0
  obtain ⟨b, hb, hb'⟩ := hp.arrays 1
  have hN : smul (smul 1 (toSize (dims 0 : Int))) (toSize (dims 1 : Int)) = dims 0 * dims 1 := by
    rw [toSize_nat (by have := hi 0; omega), toSize_nat (by have := hi 1; omega), smul_nat (by omega) (h1 1)]
  obtain ⟨r, er, rn, -, rc⟩ := load_points (hp.counts 0) (hp.counts 1) ⟨ha, length_of_reads ha'⟩ ⟨hb, length_of_reads hb'⟩
    ⟨by omega, by have := hi 0; omega⟩ ⟨by omega, by have := hi 1; omega⟩ hN hs
  refine ⟨{ v with dst := some r }, ?_, h.sized, h.limit, h.finder, h.src, .inr ⟨r, rfl, rfl, rn, ?_, ?_, by omega⟩, h.table, h.small⟩
  · unfold VNode.setDstGrid
    rw [er]; rfl
  · rw [rc, interleave_eq ha' hb']; rfl
  · rw [rc, rn]; simp [interleave]

theorem nodeRel_src (hcast : ∀ k : Nat, ((k : Int) : F) = (k : F)) {v : VNode F} {o : NodeInterp F} (h : NodeRel v o) {dims : Fin 2 → Nat}
    {per : Fin 2 → Int} {coords : Fin 2 → Nat → F} {D P : List Int} {C : List (List F)} (hp : Passed dims per coords D P C)
    (h1 : ∀ i, 1 ≤ dims i) (htot : dims 0 * dims 1 ≤ 2147483647) :
    ∃ v', v.setSrcGrid D P C = .ok v' ∧ NodeRel v' (o.setSrcGrid dims per coords) := by
  have hprod : ∏ i, dims i = dims 0 * dims 1 := Fin.prod_univ_two dims
  obtain ⟨m, hsz⟩ := h.sized
  obtain ⟨f, ef, hG, eqf⟩ := setGrid_hasGrid hcast hsz (n := 2) (by decide) (by decide) hp h1 (by rw [hprod]; exact htot)
  have arr := hp.arrays
  rw [hprod] at arr
  obtain ⟨a, ha, ha'⟩ := arr 0
  obtain ⟨b, hb, hb'⟩ := arr 1
  have b0 : dims 0 ≤ 2147483647 := (Nat.le_mul_of_pos_right _ (h1 1)).trans htot
  have b1 : dims 1 ≤ 2147483647 := (Nat.le_mul_of_pos_left _ (h1 0)).trans htot
  have hN : smul (smul 1 (toSize (dims 0 : Int))) (toSize (dims 1 : Int)) = dims 0 * dims 1 := by
    rw [toSize_nat (by omega), toSize_nat (by omega), smul_nat (by omega) (h1 1)]
  obtain ⟨r, er, rn, rcd, -⟩ := load_points (hp.counts 0) (hp.counts 1) ⟨ha, length_of_reads ha'⟩ ⟨hb, length_of_reads hb'⟩
    ⟨by omega, by omega⟩ ⟨by omega, by omega⟩ hN (by omega)
  have hlim : f.nitermax = v.finder.nitermax := congrArg Finder.nitermax eqf
  refine ⟨{ v with finder := f, src := some r }, ?_, ⟨2, hG.sized⟩, by rw [hlim]; exact h.limit, ?_, .inr ⟨r, rfl, rfl, ⟨dims, hG⟩, ?_⟩, h.dst,
    h.table, h.small⟩
  · unfold VNode.setSrcGrid
    rw [show (2 : Int) = ((2 : Nat) : Int) from rfl, ef]
    show (do
      let gr ← loadGrid D C
      return { v with finder := f, src := some gr } : Call' (VNode F)) = _
    rw [er]
    rfl
  · rw [eqf, h.finder]; rfl
  · rw [rcd]
    show ((dims 0 : Int) - 1, (dims 1 : Int) - 1) = (((dims 0 - 1 : Nat) : Int), ((dims 1 - 1 : Nat) : Int))
    rw [Nat.cast_sub (h1 0), Nat.cast_sub (h1 1)]
    rfl

theorem nodeRel_weights (hcast : ∀ k : Nat, ((k : Int) : F) = (k : F)) (g : Gels F) (hg : KeepsSizes g) {v : VNode F} {o : NodeInterp F}
    (h : NodeRel v o) : Cxx.Rel NodeRel (v.computeWeights g) (o.computeWeights g) := by
  unfold VNode.computeWeights NodeInterp.computeWeights
  rcases h.src with ⟨hs, hs'⟩ | ⟨r, hs, hs', ⟨dims, hG⟩, hc⟩
  · rw [hs, hs']
    exact .inr ⟨.uninit, rfl, rfl⟩
  rcases h.dst with ⟨hd, hd'⟩ | ⟨q, hd, hd', hn, hco, hlen, hsz⟩
  · rw [hs, hd, hd', Bool.and_false]
    exact .inr ⟨.uninit, rfl, rfl⟩
  rw [hs, hd, hs', hd']
  simp only [Bool.and_self, if_true]
  unfold NodeInterp.before
  rw [← hn]
  have h0 : StateRel dims v.finder.nitermax (⟨v.finder, startV r.cellDims, []⟩ : VState F) ⟨o.finder, startIndices o.srcCellDims, []⟩ := by
    refine ⟨hG, h.finder, rfl, rfl, ?_, rfl, fun e he => absurd he List.not_mem_nil⟩
    rw [hc]
    funext i
    unfold startV startIndices firstOf
    fin_cases i
    · simp [hcast]
    · simp [hcast]
  refine (forN_rel (fun _ => StateRel dims v.finder.nitermax) (nodeV g r q) (fun i s => o.node g i s) q.numPoints _ _ h0 (by
    intro k a b hk hab
    exact node_rel g hg h.limit hk hsz hlen hc hco hab)).bind ?_
  intro a b hab
  exact .inl ⟨_, _, rfl, rfl, ⟨2, hab.grid.sized⟩, by rw [hab.limit]; exact h.limit, hab.finder, .inr ⟨r, rfl, rfl, ⟨dims, hab.grid⟩, hc⟩,
    .inr ⟨q, rfl, rfl, rfl, hco, hlen, hsz⟩, hab.table, hab.small⟩

theorem nodeRun_rel (hcast : ∀ k : Nat, ((k : Int) : F) = (k : F)) (g : Gels F) (hg : KeepsSizes g) :
    ∀ (cs : List (NodeStep F)) (rs : List (NodeMemCall F)), List.Forall₂ NodeMeans cs rs → ∀ (v : VNode F) (o : NodeInterp F), NodeRel v o →
      (∃ r v' o', runNodeCalls g v rs = .ok (r, v') ∧ runNodeSteps g o cs = .ok (r, o') ∧ NodeRel v' o') ∨
        ∃ e, runNodeCalls g v rs = .error (.undefined e) ∧ runNodeSteps g o cs = .error e
  | [], _, .nil, v, o, h => .inl ⟨[], v, o, rfl, rfl, h⟩
  | _ :: cs, _ :: rs, .cons hm hr, v, o, h => by
    cases hm with
    | setDst hp h1 hi hs =>
      obtain ⟨v', e, h'⟩ := nodeRel_dst h hp h1 hi hs
      simp only [runNodeCalls, runNodeSteps, bind, Except.bind, e]
      exact nodeRun_rel hcast g hg cs rs hr _ _ h'
    | setSrc hp h1 htot =>
      obtain ⟨v', e, h'⟩ := nodeRel_src hcast h hp h1 htot
      simp only [runNodeCalls, runNodeSteps, bind, Except.bind, e]
      exact nodeRun_rel hcast g hg cs rs hr _ _ h'
    | weights =>
      simp only [runNodeCalls, runNodeSteps, bind, Except.bind]
      rcases nodeRel_weights hcast g hg h with ⟨v', o', e1, e2, h'⟩ | ⟨e, e1, e2⟩
      · rw [e1, e2]
        exact nodeRun_rel hcast g hg cs rs hr _ _ h'
      · rw [e1, e2]
        exact .inr ⟨e, rfl, rfl⟩
    | @apply a b ha =>
      simp only [runNodeCalls, runNodeSteps, bind, Except.bind]
      have e : v.apply a b = o.apply a b := by
        unfold VNode.apply NodeInterp.apply
        rw [h.table]
        exact apply_eq h.small ha b
      rw [e]
      cases o.apply a b with
      | error e => exact .inr ⟨e, rfl, rfl⟩
      | ok r =>
        dsimp only [lift']
        rcases nodeRun_rel hcast g hg cs rs hr v o h with ⟨t, v', o', e1, e2, h'⟩ | ⟨e, e1, e2⟩
        · rw [e1, e2]
          exact .inl ⟨r :: t, v', o', rfl, rfl, h'⟩
        · rw [e1, e2]
          exact .inr ⟨e, rfl, rfl⟩

/-- **C133.** Any calls of `setDstGrid`, `setSrcGrid`, `computeWeights` and `apply` on a new object, in any order and number, with memory
that holds the grids and data that are meant: on the vectors, maps and pointers of the object, with `int` and `size_t` arithmetic, `apply`
gives the same numbers as with unbounded integers and functions of the axis, the tables are the same, and a call is undefined exactly if
that model says so, for the same reason.  No call throws. -/
theorem C133_history (hcast : ∀ k : Nat, ((k : Int) : F) = (k : F)) (g : Gels F) (hg : KeepsSizes g) (nitermax : Int) (tolpos : F)
    (hm : nitermax ≤ 2147483647) {cs : List (NodeStep F)} {rs : List (NodeMemCall F)} (hc : List.Forall₂ NodeMeans cs rs) :
    (∃ r v o, runNodeCalls g (VNode.new nitermax tolpos) rs = .ok (r, v) ∧ runNodeSteps g (NodeInterp.new nitermax tolpos) cs = .ok (r, o) ∧
      v.weights = o.weights.map fun e => (e.1, e.2.map fun p => ((p.1 % 18446744073709551616).toNat, p.2))) ∨
    ∃ e, runNodeCalls g (VNode.new nitermax tolpos) rs = .error (.undefined e) ∧ runNodeSteps g (NodeInterp.new nitermax tolpos) cs = .error e := by
  rcases nodeRun_rel hcast g hg cs rs hc _ _ (nodeRel_new nitermax tolpos hm) with ⟨r, v, o, e1, e2, h⟩ | h
  · exact .inl ⟨r, v, o, e1, e2, h.table⟩
  · exact .inr h

/-! ### Two negative source counts -/

/-- The finder after a grid with counts `-a` and `-b`. -/
structure NegGrid (a b : Nat) (s : Raw F) : Prop where
  dims : s.dims = [toSize (-(a : Int)), toSize (-(b : Int))]
  prod : s.prodDims = [toSize (-(b : Int)), 1]
  node : s.nodeProdDims = [2, 1]
  coords : ∀ c ∈ s.coords, c.length = a * b

theorem forTwo_inv {σ : Type} {n : Nat} {x y : σ} {f : Nat → σ → Cxx σ} (e : forN (n + 2) x f = .ok y) :
    ∃ x1 x2, f 0 x = .ok x1 ∧ f 1 x1 = .ok x2 ∧ (n = 0 → x2 = y) := by
  simp only [forN, forFrom] at e
  cases e1 : f 0 x with
  | error u => rw [e1] at e; cases e
  | ok x1 =>
    rw [e1] at e
    dsimp only at e
    cases e2 : f (0 + 1) x1 with
    | error u => rw [e2] at e; cases e
    | ok x2 =>
      rw [e2] at e
      exact ⟨x1, x2, rfl, e2, fun hn => by subst hn; exact Except.ok.inj e⟩

theorem call_inv {α β : Type} {c : Call' α} {f : α → Call' β} {b : β} (h : (c >>= f) = .ok b) : ∃ a, c = .ok a ∧ f a = .ok b := by
  cases c with
  | error e => cases h
  | ok a => exact ⟨a, rfl, h⟩

theorem lift_inv {α : Type} {c : Cxx α} {a : α} (h : lift' c = .ok a) : c = .ok a := by
  cases c with
  | error e => cases h
  | ok b => exact congrArg Except.ok (Except.ok.inj h)

theorem neg_int {m : Nat} (h1 : 1 ≤ m) (h2 : m ≤ 2147483647) : toInt (toSize (-(m : Int))) = -(m : Int) := by
  unfold toInt toSize
  split_ifs <;> omega

theorem neg_index {m bit : Nat} (h1 : 1 ≤ m) (h2 : m ≤ 2147483647) (hb : bit < 2) (lo hi : Int)
    (h : isub (toInt (toSize (-(m : Int)))) 2 = .ok hi) :
    toSize (toInt (sadd (toSize (if (if lo ≥ 0 then lo else 0) ≤ hi then (if lo ≥ 0 then lo else 0) else toInt (ssub (toSize (-(m : Int))) 2))) bit)) =
      toSize (-(m : Int) - 2 + bit) := by
  rw [neg_int h1 h2] at h
  unfold isub chk at h
  split_ifs at h with hin
  simp only [Except.ok.injEq] at h
  subst h
  unfold inI32 at hin
  have h3 : toInt (ssub (toSize (-(m : Int))) 2) = -(m : Int) - 2 := by unfold toInt ssub toSize; split_ifs <;> omega
  rw [h3, if_neg (show ¬ (if lo ≥ 0 then lo else 0) ≤ -(m : Int) - 2 by split_ifs <;> omega)]
  unfold toInt sadd toSize
  split_ifs <;> omega

/-- The index in the second corner of a cell. -/
theorem neg_corner {a b : Nat} (ha : 1 ≤ a) (hb : 1 ≤ b) (hab : a * b ≤ 2147483647) {s : Raw F} (h : NegGrid a b s) (L : List F) (c : Nat × F)
    (e : s.corner L 1 = .ok c) : c.1 = a * b + b - 1 := by
  have sa : a ≤ 2147483647 := (Nat.le_mul_of_pos_right _ hb).trans hab
  have sb : b ≤ 2147483647 := (Nat.le_mul_of_pos_left _ ha).trans hab
  unfold Raw.corner at e
  rw [h.dims] at e
  obtain ⟨fw1, fw2, e1, e2, e⟩ := forTwo_inv (n := 0) e
  obtain rfl := e rfl
  have f1 : fw1.1 = sadd 0 (smul (toSize (-(b : Int))) (toSize (-(a : Int) - 2 + (0 : Nat)))) := by
    unfold Raw.cornerRound at e1
    rw [h.dims, h.prod, h.node] at e1
    obtain ⟨d, -, e1⟩ := bind_ok_inv e1
    obtain ⟨lo, -, e1⟩ := bind_ok_inv e1
    obtain ⟨m, hm, e1⟩ := bind_ok_inv e1
    obtain rfl : toSize (-(a : Int)) = m := Except.ok.inj hm
    obtain ⟨hi, hh, e1⟩ := bind_ok_inv e1
    obtain ⟨q, hq, e1⟩ := bind_ok_inv e1
    obtain rfl : 2 = q := Except.ok.inj hq
    obtain ⟨bit, hbit, e1⟩ := bind_ok_inv e1
    obtain rfl : 0 = bit := Except.ok.inj hbit
    obtain ⟨p, hp, e1⟩ := bind_ok_inv e1
    obtain rfl : toSize (-(b : Int)) = p := Except.ok.inj hp
    rw [← neg_index ha sa (by decide) lo hi hh, ← Except.ok.inj e1]
  have f2 : fw2.1 = sadd fw1.1 (smul 1 (toSize (-(b : Int) - 2 + (1 : Nat)))) := by
    unfold Raw.cornerRound at e2
    rw [h.dims, h.prod, h.node] at e2
    obtain ⟨d, -, e2⟩ := bind_ok_inv e2
    obtain ⟨lo, -, e2⟩ := bind_ok_inv e2
    obtain ⟨m, hm, e2⟩ := bind_ok_inv e2
    obtain rfl : toSize (-(b : Int)) = m := Except.ok.inj hm
    obtain ⟨hi, hh, e2⟩ := bind_ok_inv e2
    obtain ⟨q, hq, e2⟩ := bind_ok_inv e2
    obtain rfl : 1 = q := Except.ok.inj hq
    obtain ⟨bit, hbit, e2⟩ := bind_ok_inv e2
    obtain rfl : 1 = bit := Except.ok.inj hbit
    obtain ⟨p, hp, e2⟩ := bind_ok_inv e2
    obtain rfl : 1 = p := Except.ok.inj hp
    rw [← neg_index hb sb (by decide) lo hi hh, ← Except.ok.inj e2]
  rw [f2, f1, smul_toSize, smul_one_toSize]
  have e3 : -(b : Int) * (-(a : Int) - 2 + (0 : Nat)) = ((a * b : Nat) : Int) + 2 * b := by push_cast; ring
  rw [e3]
  generalize a * b = N at *
  unfold sadd toSize
  omega

/-- Interpolation reads past the end. -/
theorem neg_interp {a b : Nat} (ha : 1 ≤ a) (hb : 1 ≤ b) (hab : a * b ≤ 2147483647) {s : Raw F} (h : NegGrid a b s) (L c : List F)
    (hc : c.length = a * b) (x : F) : s.interp L c ≠ .ok x := by
  intro e
  unfold Raw.interp at e
  obtain ⟨iw, e1, e2⟩ := bind_ok_inv e
  have hd : s.dims.length = 2 := by rw [h.dims]; rfl
  unfold Raw.getSrcIndicesAndWeights at e1
  rw [hd] at e1
  have e1 : forN 4 (List.replicate 4 ((0 : Nat), (0 : F))) (fun j res => do
    let c ← s.corner L j
    vset res j c) = .ok iw := e1
  obtain ⟨hlen, hone⟩ := forN_inv_ok (fun k (res : List (Nat × F)) => res.length = 4 ∧ (1 < k → ∃ c, res[1]? = some c ∧ s.corner L 1 = .ok c))
    (fun j res => do
      let c ← s.corner L j
      vset res j c) 4 _ iw ⟨rfl, fun h => by omega⟩ (by
      intro k r r' hk ⟨h1, h2⟩ hr
      obtain ⟨c, hc, hr⟩ := bind_ok_inv hr
      rw [vset_ok (by omega)] at hr
      obtain rfl := Except.ok.inj hr
      refine ⟨by simpa using h1, fun hk1 => ?_⟩
      by_cases hk2 : k = 1
      · subst hk2
        exact ⟨c, by rw [List.getElem?_set_self (by omega)], hc⟩
      · obtain ⟨c', q1, q2⟩ := h2 (by omega)
        exact ⟨c', by rw [List.getElem?_set_ne (by omega)]; exact q1, q2⟩) e1
  obtain ⟨p, hp, hcor⟩ := hone (by decide)
  have hidx := neg_corner ha hb hab h L p hcor
  rw [hlen] at e2
  obtain ⟨r1, r2, -, e3, -⟩ := forTwo_inv (n := 2) e2
  obtain ⟨q, hq, e3⟩ := bind_ok_inv e3
  obtain ⟨v, hv, -⟩ := bind_ok_inv e3
  rw [vget_eq_ok, hp, Option.some.injEq] at hq
  subst hq
  rw [vget_eq_ok, hidx, List.getElem?_eq_none (by omega)] at hv
  cases hv

/-- A step of the search is undefined, or the target is outside and nothing happens. -/
theorem neg_next {a b : Nat} (ha : 1 ≤ a) (hb : 1 ≤ b) (hab : a * b ≤ 2147483647) (g : Gels F) {s : Raw F} (h : NegGrid a b s)
    (r : Int × Raw F) (e : s.next g = .ok r) : r = (-3, s) := by
  unfold Raw.next at e
  obtain ⟨ins, -, e⟩ := bind_ok_inv e
  cases ins with
  | false => exact (Except.ok.inj e).symm
  | true =>
    simp only [Bool.not_true, Bool.false_eq_true, if_false] at e
    obtain ⟨s1, e1, -⟩ := bind_ok_inv e
    unfold Raw.computeJacobianAndRHS at e1
    obtain ⟨w, e2, -⟩ := bind_ok_inv e1
    rw [show s.dims.length = 2 by rw [h.dims]; rfl] at e2
    obtain ⟨w1, w2, e3, -, -⟩ := forTwo_inv (n := 0) e2
    unfold Raw.rhsRound at e3
    obtain ⟨c, hc, e3⟩ := bind_ok_inv e3
    obtain ⟨p, hp, -⟩ := bind_ok_inv e3
    exact absurd hp (neg_interp ha hb hab h _ _ (h.coords c (List.mem_of_getElem? (vget_eq_ok.1 hc))) p)

theorem neg_reset {a b : Nat} {s s' : Raw F} (h : NegGrid a b s) {d t : List F} (e : s.reset d t = .ok s') : NegGrid a b s' := by
  unfold Raw.reset at e
  obtain ⟨s1, e1, e2⟩ := bind_ok_inv e
  have := forN_inv_ok (fun _ (x : Raw F) => NegGrid a b x) _ _ _ _ h (by
    intro k x x' _ hx hr
    obtain ⟨d1, -, hr⟩ := bind_ok_inv hr
    obtain ⟨d2, -, hr⟩ := bind_ok_inv hr
    obtain ⟨d3, -, hr⟩ := bind_ok_inv hr
    obtain ⟨d4, -, hr⟩ := bind_ok_inv hr
    obtain rfl := Except.ok.inj hr
    exact ⟨hx.dims, hx.prod, hx.node, hx.coords⟩) e1
  obtain rfl := Except.ok.inj e2
  exact ⟨this.dims, this.prod, this.node, this.coords⟩

theorem neg_find {a b : Nat} (ha : 1 ≤ a) (hb : 1 ≤ b) (hab : a * b ≤ 2147483647) (g : Gels F) {s : Raw F} (h : NegGrid a b s) {t d : List F}
    {c : Int} {s' : Raw F} (e : findTargetV g s t d = .ok (c, s')) : c = -3 ∧ NegGrid a b s' := by
  unfold findTargetV at e
  obtain ⟨s1, e1, e⟩ := bind_ok_inv e
  obtain ⟨⟨k, s2⟩, e2, e⟩ := bind_ok_inv e
  obtain ⟨q, hq⟩ : ∃ q, (max s.nitermax 1).toNat = q + 1 := ⟨(max s.nitermax 1).toNat - 1, by omega⟩
  rw [hq] at e2
  unfold searchV at e2
  obtain ⟨r, e3, e2⟩ := bind_ok_inv e2
  have hn := neg_reset h e1
  have := neg_next ha hb hab g hn r e3
  subst this
  rw [if_neg (show ¬ (-3 : Int) = 0 by decide)] at e2
  obtain ⟨rfl, rfl⟩ := Prod.mk.inj (Except.ok.inj e2)
  obtain ⟨rfl, rfl⟩ := Prod.mk.inj (Except.ok.inj e)
  exact ⟨rfl, hn⟩

theorem neg_component {N : Nat} (hN : N ≤ 2147483647) (i : Nat) (C : List (List F)) (s s' : Raw F) (hl : s.coords.length = 2)
    (hi : ∀ a < i, ∀ v, s.coords[a]? = some v → v.length = N) (e : s.setComponent (N : Int) C i = .ok s') :
    s'.dims = s.dims ∧ s'.prodDims = s.prodDims ∧ s'.nodeProdDims = s.nodeProdDims ∧ s'.coords.length = 2 ∧
      ∀ a < i + 1, ∀ v, s'.coords[a]? = some v → v.length = N := by
  have key : ∀ w : List F, w.length = N → (s.coords.set i w).length = 2 ∧ ∀ a < i + 1, ∀ v, (s.coords.set i w)[a]? = some v → v.length = N := by
    intro w hw
    refine ⟨by simpa using hl, fun a ha v hv => ?_⟩
    by_cases hai : a = i
    · subst hai
      have ha2 : a < s.coords.length := by
        have := (List.getElem?_eq_some_iff.1 hv).1
        simpa using this
      rw [List.getElem?_set_self ha2, Option.some.injEq] at hv
      rw [← hv]; exact hw
    · rw [List.getElem?_set_ne (by omega)] at hv
      exact hi a (by omega) v hv
  unfold Raw.setComponent at e
  obtain ⟨old, -, e⟩ := call_inv e
  obtain ⟨v, e1, e⟩ := call_inv e
  have hv : v.length = N := by
    rw [toSize_nat (by omega)] at e1
    unfold resize at e1
    split_ifs at e1
    rw [← Except.ok.inj e1]
    simp only [List.length_append, List.length_take, List.length_replicate]
    omega
  split_ifs at e
  · obtain rfl := Except.ok.inj e
    exact ⟨rfl, rfl, rfl, key v hv⟩
  · obtain ⟨src, -, e⟩ := call_inv e
    obtain ⟨lo, -, e⟩ := call_inv e
    obtain ⟨hi', -, e⟩ := call_inv e
    obtain ⟨⟨w, lo', hi2⟩, e3, e⟩ := call_inv e
    obtain rfl := Except.ok.inj e
    have e3 := lift_inv e3
    unfold copyCoords at e3
    have hw : w.length = N := forN_inv_ok (fun _ (x : List F × F × F) => x.1.length = N) _ _ _ _ hv (by
      intro k x x' _ hx hr
      obtain ⟨c, -, hr⟩ := bind_ok_inv hr
      obtain ⟨u, hu, hr⟩ := bind_ok_inv hr
      obtain rfl := Except.ok.inj hr
      unfold vset at hu
      split_ifs at hu
      rw [← Except.ok.inj hu]
      simpa using hx) e3
    exact ⟨rfl, rfl, rfl, key w hw⟩

theorem neg_setGrid {a b : Nat} (ha : 1 ≤ a) (hb : 1 ≤ b) (hab : a * b ≤ 2147483647) {P : List Int} {C : List (List F)} {s s' : Raw F}
    (e : s.setGrid 2 [-(a : Int), -(b : Int)] P C = .ok s') : NegGrid a b s' := by
  unfold Raw.setGrid at e
  rw [if_neg (by decide)] at e
  obtain ⟨s1, e1, e⟩ := call_inv e
  obtain ⟨per, -, e⟩ := call_inv e
  obtain ⟨⟨prod, node⟩, e2, e⟩ := call_inv e
  obtain ⟨⟨ntot, ds⟩, e3, e⟩ := call_inv e
  obtain ⟨s2, e4, e⟩ := call_inv e
  obtain rfl := Except.ok.inj e
  have er := resizeAll_ok s (k := 2) (by decide)
  rw [show ((2 : Nat) : Int) = 2 from rfl, e1] at er
  have er := Except.ok.inj er
  have hd : s1.dims.length = 2 := by rw [er]; exact rsz_length _ _ _
  have hp : s1.prodDims.length = 2 := by rw [er]; exact rsz_length _ _ _
  have hn : s1.nodeProdDims.length = 2 := by rw [er]; exact rsz_length _ _ _
  have hc : s1.coords.length = 2 := by rw [er]; exact rsz_length _ _ _
  clear er
  have hprod : prod = [toSize (-(b : Int)), 1] ∧ node = [2, 1] := by
    have e2 := lift_inv e2
    obtain ⟨x0, x1, hx⟩ := List.length_eq_two.1 hp
    obtain ⟨y0, y1, hy⟩ := List.length_eq_two.1 hn
    rw [hx, hy] at e2
    have : setProducts 2 [-(a : Int), -(b : Int)] [x0, x1] [y0, y1] = .ok ([smul 1 (toSize (-(b : Int))), 1], [smul 1 2, 1]) := rfl
    rw [show (2 : Int).toNat = 2 from rfl, this] at e2
    obtain ⟨rfl, rfl⟩ := Prod.mk.inj (Except.ok.inj e2)
    refine ⟨?_, rfl⟩
    rw [smul_one_toSize]
  have hds : ds = [toSize (-(a : Int)), toSize (-(b : Int))] ∧ ntot = ((a * b : Nat) : Int) := by
    have e3 := lift_inv e3
    obtain ⟨x0, x1, hx⟩ := List.length_eq_two.1 hd
    rw [hx] at e3
    obtain ⟨z1, z2, h1, h2, h3⟩ := forTwo_inv (n := 0) e3
    obtain rfl := h3 rfl
    obtain ⟨d, hd, h1⟩ := bind_ok_inv h1
    obtain rfl : -(a : Int) = d := Except.ok.inj hd
    obtain ⟨n1, hn1, h1⟩ := bind_ok_inv h1
    obtain rfl : (n1, [toSize (-(a : Int)), x1]) = z1 := Except.ok.inj h1
    obtain ⟨d, hd, h2⟩ := bind_ok_inv h2
    obtain rfl : -(b : Int) = d := Except.ok.inj hd
    obtain ⟨n2, hn2, h2⟩ := bind_ok_inv h2
    obtain ⟨rfl, rfl⟩ : n2 = ntot ∧ [toSize (-(a : Int)), toSize (-(b : Int))] = ds := Prod.mk.inj (Except.ok.inj h2)
    refine ⟨rfl, ?_⟩
    unfold imul chk at hn1 hn2
    split_ifs at hn1 hn2
    rw [← Except.ok.inj hn2, ← Except.ok.inj hn1]
    push_cast; ring
  rw [hds.2, show (2 : Int).toNat = 2 from rfl] at e4
  unfold Raw.setComponents at e4
  obtain ⟨u1, c1, e4⟩ := call_inv e4
  unfold Raw.setComponents at e4
  obtain ⟨u2, c2, e4⟩ := call_inv e4
  unfold Raw.setComponents at e4
  obtain rfl := Except.ok.inj e4
  obtain ⟨q1, q2, q3, q4, q5⟩ := neg_component hab 0 C { s1 with indexPeriodicity := per, prodDims := prod, nodeProdDims := node, dims := ds }
    _ hc (fun a ha => absurd ha (Nat.not_lt_zero _)) c1
  obtain ⟨r1, r2, r3, r4, r5⟩ := neg_component hab 1 C _ _ q4 q5 c2
  refine ⟨(r1.trans q1).trans hds.1, (r2.trans q2).trans hprod.1, (r3.trans q3).trans hprod.2, fun c hcm => ?_⟩
  obtain ⟨k, hk, hk'⟩ := List.getElem_of_mem hcm
  have hk : k < u2.coords.length := hk
  exact r5 k (by omega) c (by rw [List.getElem?_eq_getElem hk, hk'])

/-- **C133.** Two negative source counts are accepted by `setSrcGrid`, but no weights come of it: whatever the destination grid,
`computeWeights` is undefined or leaves an empty table (all destination nodes outside the box of the source nodes). -/
theorem C133_negative_source (g : Gels F) {a b : Nat} (ha : 1 ≤ a) (hb : 1 ≤ b) (hab : a * b ≤ 2147483647) (o o1 o2 o3 : VNode F) (P : List Int)
    (C C' : List (List F)) (D : List Int) (h1 : o.setSrcGrid [-(a : Int), -(b : Int)] P C = .ok o1) (h2 : o1.setDstGrid D C' = .ok o2)
    (h3 : o2.computeWeights g = .ok o3) : o3.weights = [] := by
  unfold VNode.setSrcGrid at h1
  obtain ⟨f, e1, h1⟩ := call_inv h1
  obtain ⟨r, e2, h1⟩ := call_inv h1
  have hN := neg_setGrid ha hb hab e1
  obtain rfl := Except.ok.inj h1
  unfold VNode.setDstGrid at h2
  obtain ⟨q, e3, h2⟩ := call_inv h2
  obtain rfl := Except.ok.inj h2
  unfold VNode.computeWeights at h3
  dsimp only at h3
  obtain ⟨t, e4, h3⟩ := bind_ok_inv h3
  obtain rfl := Except.ok.inj h3
  exact (forN_inv_ok (fun _ (x : VState F) => NegGrid a b x.finder ∧ x.weights = []) _ _ _ _ ⟨hN, rfl⟩ (by
    rintro k x x' _ ⟨hx, hw⟩ hr
    unfold nodeV at hr
    obtain ⟨⟨c, f1⟩, hf, hr⟩ := bind_ok_inv hr
    obtain ⟨rfl, hn⟩ := neg_find ha hb hab g hx hf
    dsimp only at hr
    rw [if_neg (show ¬ (-3 : Int) = 0 by decide), if_pos rfl] at hr
    obtain ⟨_, -, hr⟩ := bind_ok_inv hr
    obtain ⟨_, -, hr⟩ := bind_ok_inv hr
    obtain ⟨_, -, hr⟩ := bind_ok_inv hr
    obtain ⟨_, -, hr⟩ := bind_ok_inv hr
    obtain ⟨_, -, hr⟩ := bind_ok_inv hr
    obtain ⟨_, -, hr⟩ := bind_ok_inv hr
    obtain ⟨_, -, hr⟩ := bind_ok_inv hr
    obtain rfl := Except.ok.inj hr
    exact ⟨hn, hw⟩) e4).2

end generic

/-! ### Examples -/

open Sg.Witness

/-- The calls of an example with the memory behind the pointers: a destination node in the first cell, the weights, and data. -/
def memCalls : List (NodeMemCall ℚ) :=
  [.setDst [1, 1] [[1/2, 99], [1]], .setSrc [2, 3] [0, 0] [[0, 0, 0, 1, 1, 1], [0, 1, 2, 0, 1, 2]], .weights,
    .apply [1, 2, 3, 4, 5, 6] [77, 88]]

/-- What the object of the model is given. -/
def memSteps : List (NodeStep ℚ) :=
  [.setDst ![1, 1] (fun i _ => if i = 0 then 1/2 else 1), .setSrc ![2, 3] ![0, 0] (fun i k => if i = 0 then ((k / 3 : Nat) : ℚ) else ((k % 3 : Nat) : ℚ)),
    .weights, .apply [1, 2, 3, 4, 5, 6] [77, 88]]

theorem mem_means : List.Forall₂ NodeMeans memSteps memCalls := by
  refine .cons (.setDst ⟨by decide, ?_⟩ (by decide) (by decide) (by decide)) (.cons (.setSrc ⟨by decide, by decide, ?_⟩ (by decide) (by decide))
    (.cons .weights (.cons (.apply (by decide)) .nil)))
  · intro i
    fin_cases i
    · exact ⟨_, rfl, by decide +kernel⟩
    · exact ⟨_, rfl, by decide +kernel⟩
  · rw [Fin.prod_univ_two]
    intro i
    fin_cases i
    · exact ⟨_, rfl, by decide +kernel⟩
    · exact ⟨_, rfl, by decide +kernel⟩

/-- The hypotheses hold for it. -/
example := C133_history (F := ℚ) (fun k => Int.cast_natCast k) cramerGels cramerGels_contract.sizes 10 (1/100) (by decide) mem_means

/-- The outputs, computed on the vectors. -/
example : (do
    let r ← runNodeCalls cramerGels (VNode.new 10 (1/100)) memCalls
    return (r.1, r.2.weights) : Call' (List (List ℚ) × VTable ℚ)) = .ok ([[7/2, 88]], [(0, [(1, 1/2), (2, 0), (4, 1/2), (5, 0)])]) := by
  decide +kernel

/-- Two negative counts for the source: the grid is accepted, a node outside the box gets no entry, and a node inside makes the call
undefined. -/
example : (do
    let o ← (VNode.new 10 (1/100) : VNode ℚ).setSrcGrid [-2, -3] [0, 0] [[0, 0, 0, 1, 1, 1], [0, 1, 2, 0, 1, 2]]
    let o ← o.setDstGrid [1, 1] [[5], [1]]
    let o ← lift' (o.computeWeights cramerGels)
    return o.weights : Call' (VTable ℚ)) = .ok [] := by
  decide +kernel

example : (do
    let o ← (VNode.new 10 (1/100) : VNode ℚ).setSrcGrid [-2, -3] [0, 0] [[0, 0, 0, 1, 1, 1], [0, 1, 2, 0, 1, 2]]
    let o ← o.setDstGrid [1, 1] [[1/2], [1]]
    let o ← lift' (o.computeWeights cramerGels)
    return o.weights : Call' (VTable ℚ)) = .error (.undefined .outOfBounds) := by
  decide +kernel

end Sg.Props
