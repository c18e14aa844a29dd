import Verif.Model.FindOverlapRun
import Verif.Proof.NodeInterpRun
import Verif.Props.OverlapRaw
/- Candidate cells on vectors compared with the model on functions of the axis. -/
namespace Sg.FindOverlap
open Sg.FindPoint Sg.LinearSolve Sg.NodeInterp Sg.Props

set_option linter.unusedSectionVars false
variable {F : Type} [Zero F] [One F] [Add F] [Sub F] [Mul F] [Div F] [Neg F] [LT F] [DecidableLT F]
  [LE F] [DecidableLE F] [DecidableEq F] [NatCast F] [IntCast F] [FOps F]

/-- Corners as vectors. -/
def CornersAre (c : List F × List F) (C : Corners F) : Prop := c = ([C.lo 0, C.lo 1], [C.hi 0, C.hi 1])

/-- The limit of steps stays. -/
theorem search_limit (g : Gels F) (hg : KeepsSizes g) {dims : Fin 2 → Nat} {s s' : Raw F} (h : HasGrid dims s) {k : Nat} {c : Int}
    (h0 : 0 ≤ s.iter) (hk : s.iter + k ≤ 2147483647) (e : searchV g k s = .ok (c, s')) : s'.nitermax = s.nitermax := by
  rcases search_rel g hg k s h h0 hk with ⟨⟨c1, s1⟩, ⟨c2, f⟩, e1, e2, -, -, h3⟩ | ⟨u, e1, -⟩
  · rw [e] at e1
    obtain ⟨rfl, rfl⟩ := Prod.mk.inj (Except.ok.inj e1)
    have := (loop_same g _ _ _ _ e2).nitermax
    simp only at h3
    rw [← h3] at this
    exact this
  · rw [e] at e1; cases e1

theorem init_ok {d0 d1 m0 m1 : Int} (h0 : isub d0 1 = .ok m0) (h1 : isub d1 1 = .ok m1) {lo hi : List F} (hl : lo.length = 2) (hh : hi.length = 2) :
    cornersInit [d0, d1] (lo, hi) = .ok ([(m0 : F), (m1 : F)], [0, 0]) := by
  obtain ⟨l0, l1, rfl⟩ := List.length_eq_two.1 hl
  obtain ⟨x0, x1, rfl⟩ := List.length_eq_two.1 hh
  unfold cornersInit
  simp [forN, forFrom, vget, vset, h0, h1, bind, Except.bind, pure, Except.pure]

theorem update_ok {d0 d1 m0 m1 : Int} (h0 : isub d0 1 = .ok m0) (h1 : isub d1 1 = .ok m1) {c : List F × List F} {C : Corners F}
    (hc : CornersAre c C) {d : List F} (hd : d.length = 2) :
    ∃ c', cornersUpdate [d0, d1] d c = .ok c' ∧ CornersAre c' (C.updateI (fun j => if j = 0 then m0 else m1) (firstOf 2 d)) := by
  obtain ⟨x0, x1, rfl⟩ := List.length_eq_two.1 hd
  unfold CornersAre at hc
  subst hc
  refine ⟨_, ?_, rfl⟩
  unfold cornersUpdate Corners.updateI
  simp [forN, forFrom, vget, vset, h0, h1, bind, Except.bind, pure, Except.pure, firstOf]

theorem point_rel (g : Gels F) (hg : KeepsSizes g) {dims : Fin 2 → Nat} {poly : List F} {d0 d1 m0 m1 : Int} (h0 : isub d0 1 = .ok m0)
    (h1 : isub d1 1 = .ok m1) {i : Nat} (hi : 2 * (i + 1) ≤ poly.length) (hp : i ≤ 2147483647) {a : Raw F × List F × List F}
    {b : Finder F 2 × Corners F} (hG : HasGrid dims a.1) (hf : asFinder 2 a.1 = b.1) (hm : a.1.nitermax = 100) (hc : CornersAre a.2 b.2) :
    Cxx.Rel (fun a b => HasGrid dims a.1 ∧ asFinder 2 a.1 = b.1 ∧ a.1.nitermax = 100 ∧ CornersAre a.2 b.2)
      (pointV g poly [d0, d1] [(d0 : F) / ((2123353 : Nat) / (1000000 : Nat)), (d1 : F) / ((19647354 : Nat) / (10000000 : Nat))] i a)
      (pointR g poly (startIndicesI d0 d1) (fun j => if j = 0 then m0 else m1) i b) := by
  have hsm : smul i 2 = i * 2 := by unfold smul; omega
  have ht : 2 ≤ (poly.drop (smul i 2)).length := by rw [List.length_drop, hsm]; omega
  obtain ⟨s', e1, e2, e3, e4⟩ := reset_hasGrid hG (d := [(d0 : F) / ((2123353 : Nat) / (1000000 : Nat)),
    (d1 : F) / ((19647354 : Nat) / (10000000 : Nat))]) (t := poly.drop (smul i 2)) (by simp) ht
  have hst : firstOf 2 [(d0 : F) / ((2123353 : Nat) / (1000000 : Nat)), (d1 : F) / ((19647354 : Nat) / (10000000 : Nat))] =
      startIndicesI d0 d1 := by
    funext j; fin_cases j <;> rfl
  have hta : (forAxes fun j : Fin 2 => vget poly (smul i 2 + j)) = .ok (firstOf 2 (poly.drop (smul i 2))) := by
    refine forAxes_ok _ _ fun j => ?_
    apply vget_eq_ok.2
    unfold firstOf
    rw [List.getD_eq_getElem?_getD, List.getElem?_drop]
    have : smul i 2 + (j : Nat) < poly.length := by rw [hsm]; omega
    rw [List.getElem?_eq_getElem this]
    rfl
  unfold pointV pointR
  rw [hta]
  simp only [bind, Except.bind, e1]
  have hlim : s'.nitermax = 100 := by
    have := congrArg Finder.nitermax e3
    exact this.trans hm
  have hfu : b.1.fuelOf = (max a.1.nitermax 1).toNat := by rw [← hf]; rfl
  rw [hfu, ← hf, ← hst, ← e3]
  rcases search_rel g hg (max a.1.nitermax 1).toNat s' e2 (by omega) (by rw [hm, e4]; decide) with ⟨⟨c, x⟩, ⟨c', y⟩, q1, q2, q3, q4, q5⟩ | ⟨e, q1, q2⟩
  · simp only at q3 q4 q5
    have hx := search_limit g hg e2 (by omega) (by rw [hm, e4]; decide) q1
    obtain ⟨c1, r1, r2⟩ := update_ok h0 h1 hc q4.sized.dIndices
    rw [q1, q2]
    simp only [r1]
    refine .inl ⟨_, _, rfl, rfl, q4, q5, hx.trans hlim, ?_⟩
    rw [← q5]
    exact r2
  · rw [q1, q2]
    exact .inr ⟨e, rfl, rfl⟩

theorem box_rel {d0 d1 m0 m1 : Int} (h0 : isub d0 1 = .ok m0) (h1 : isub d1 1 = .ok m1) {c : List F × List F} {C : Corners F}
    (hc : CornersAre c C) (eps : F) : boxIndsV eps [d0, d1] c 0 = boxIndsR eps d0 (C.lo 0) (C.hi 0) ∧
      boxIndsV eps [d0, d1] c 1 = boxIndsR eps d1 (C.lo 1) (C.hi 1) := by
  unfold CornersAre at hc
  subst hc
  unfold boxIndsV boxIndsR floorInt
  simp only [vget, List.getElem?_cons_zero, List.getElem?_cons_succ, bind, Except.bind, h0, h1]
  constructor
  · cases FOps.floorI (C.lo 0) <;> cases ceilI (C.hi 0 + eps) <;> rfl
  · cases FOps.floorI (C.lo 1) <;> cases ceilI (C.hi 1 + eps) <;> rfl

/-- What is true of the vectors of an object besides `RepOk`. -/
structure VOk (v : VOverlap F) : Prop where
  rep : RepOk v.base
  grid : v.base.srcNodeDims ≠ [] → ∃ dims : Fin 2 → Nat, HasGrid dims v.base.finder
  limit : v.base.finder.nitermax = 100
  lo : v.loIndxCorner.length = 2
  hi : v.hiIndxCorner.length = 2
  poly : ∀ n, v.base.numPolyPoints = some n → v.base.polyPoints.length = 2 * n

theorem find_vr (g : Gels F) (hg : KeepsSizes g) {v : VOverlap F} (h : VOk v) :
    Cxx.Rel (fun v' r' => { v'.base with finder := r'.finder } = r' ∧ asFinder 2 v'.base.finder = asFinder 2 r'.finder ∧
      (∃ dims : Fin 2 → Nat, HasGrid dims v'.base.finder) ∧ v'.base.finder.nitermax = 100 ∧ v'.loIndxCorner.length = 2 ∧
      v'.hiIndxCorner.length = 2 ∧ v'.base.numPolyPoints = v.base.numPolyPoints ∧ v'.base.polyPoints = v.base.polyPoints)
      (v.findSrcCellIndices g) (v.base.findSrcCellIndices g) := by
  rcases h.rep.dims with hz | ⟨d0, d1, hd, hpd, p0, p1, hp, hsz⟩
  · right
    refine ⟨.outOfBounds, ?_, ?_⟩
    · unfold VOverlap.findSrcCellIndices VOverlap.findFloatIndexBoxOfPolygon
      rw [hz]; rfl
    · unfold ROverlap.findSrcCellIndices ROverlap.findFloatIndexBoxOfPolygon
      rw [hz]; rfl
  obtain ⟨dims, hG⟩ := h.grid (by rw [hd]; simp)
  have b0 : d0 ≤ 2147483647 := (Nat.le_mul_of_pos_right _ p1).trans hp
  have b1 : d1 ≤ 2147483647 := (Nat.le_mul_of_pos_left _ p0).trans hp
  obtain ⟨m0, h0⟩ : ∃ m0, isub (d0 : Int) 1 = .ok m0 := ⟨_, by unfold isub chk; rw [if_pos (by unfold inI32; omega)]⟩
  obtain ⟨m1, h1⟩ : ∃ m1, isub (d1 : Int) 1 = .ok m1 := ⟨_, by unfold isub chk; rw [if_pos (by unfold inI32; omega)]⟩
  have hbox : Cxx.Rel (fun a b => HasGrid dims a.1 ∧ asFinder 2 a.1 = b.1 ∧ a.1.nitermax = 100 ∧ CornersAre a.2 b.2)
      (v.findFloatIndexBoxOfPolygon g) (v.base.findFloatIndexBoxOfPolygon g) := by
    unfold VOverlap.findFloatIndexBoxOfPolygon ROverlap.findFloatIndexBoxOfPolygon
    rw [hd]
    simp only [vget, List.getElem?_cons_zero, List.getElem?_cons_succ, init_ok h0 h1 h.lo h.hi, h0, h1, bind, Except.bind]
    cases hn : v.base.numPolyPoints with
    | none => exact .inr ⟨.uninit, rfl, rfl⟩
    | some n =>
      have hlen := h.poly n hn
      have hnle := h.rep.num n hn
      exact forN_rel (fun _ (a : Raw F × List F × List F) (b : Finder F 2 × Corners F) => HasGrid dims a.1 ∧ asFinder 2 a.1 = b.1 ∧
        a.1.nitermax = 100 ∧ CornersAre a.2 b.2) _ _ n _ _ ⟨hG, rfl, h.limit, rfl⟩ (by
        rintro k a b hk ⟨q1, q2, q3, q4⟩
        exact point_rel g hg h0 h1 (by omega) (by omega) q1 q2 q3 q4)
  unfold VOverlap.findSrcCellIndices ROverlap.findSrcCellIndices
  rw [hd]
  rcases hbox with ⟨⟨f, c⟩, ⟨f', C⟩, e1, e2, q1, q2, q3, q4⟩ | ⟨e, e1, e2⟩
  · simp only at q1 q2 q3 q4
    have hsame : SameGrid (asFinder 2 v.base.finder) f' := by
      unfold ROverlap.findFloatIndexBoxOfPolygon at e2
      obtain ⟨_, -, e2⟩ := bind_ok_inv e2
      obtain ⟨_, -, e2⟩ := bind_ok_inv e2
      obtain ⟨_, -, e2⟩ := bind_ok_inv e2
      obtain ⟨_, -, e2⟩ := bind_ok_inv e2
      cases hn : v.base.numPolyPoints with
      | none => rw [hn] at e2; cases e2
      | some n =>
        rw [hn] at e2
        refine forN_inv_ok (fun _ (s : Finder F 2 × Corners F) => SameGrid (asFinder 2 v.base.finder) s.1) _ _ _ _ (sameGrid_refl _) ?_ e2
        intro k s s' _ hs hp
        unfold pointR at hp
        obtain ⟨t, _, hp⟩ := bind_ok_inv hp
        obtain ⟨⟨c1, f1⟩, hl, hp⟩ := bind_ok_inv hp
        simp only [pure, Except.pure, Except.ok.injEq] at hp
        subst hp
        have := loop_same g _ _ _ _ hl
        exact sameGrid_trans hs ⟨this.coords, this.bounds, this.per, this.dims, this.nitermax, this.tolpos⟩
    obtain ⟨r1, r2⟩ := box_rel h0 h1 q4 v.base.eps
    rw [e1, e2]
    simp only [bind, Except.bind, vget, List.getElem?_cons_zero, List.getElem?_cons_succ, r1, r2]
    cases boxIndsR v.base.eps (d0 : Int) (C.lo 0) (C.hi 0) with
    | error e => exact .inr ⟨e, rfl, rfl⟩
    | ok x0 =>
    dsimp only
    cases boxIndsR v.base.eps (d1 : Int) (C.lo 1) (C.hi 1) with
    | error e => exact .inr ⟨e, rfl, rfl⟩
    | ok x1 =>
    dsimp only
    cases BoxIterator.new [x0, x1] with
    | error e => exact .inr ⟨e, rfl, rfl⟩
    | ok bx =>
    dsimp only
    cases forN bx.getNumberOfElements.toNat ([] : List Int) _ with
    | error e => exact .inr ⟨e, rfl, rfl⟩
    | ok inds =>
    unfold CornersAre at q4
    subst q4
    exact .inl ⟨_, _, rfl, rfl, by simp only [hd], by rw [q2]; exact (asFinder_putBack hsame).symm, ⟨dims, q1⟩, q3, rfl, rfl, rfl, rfl⟩
  · rw [e1, e2]
    exact .inr ⟨e, rfl, rfl⟩

end Sg.FindOverlap
