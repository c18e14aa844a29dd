import Verif.Proof.FindOverlapRun
import Verif.Props.NodeRun
import Mathlib.Tactic.Linarith
/-
Property C134: candidate cells on the vectors and pointers of the object.
-/
namespace Sg.Props
open Sg Sg.FindPoint Sg.LinearSolve Sg.Spec Sg.NodeInterp Sg.Conserve Sg.FindOverlap

section generic
set_option linter.unusedSectionVars false
variable {F : Type} [Zero F] [One F] [Add F] [Sub F] [Mul F] [Div F] [Neg F] [LT F] [DecidableLT F]
  [LE F] [DecidableLE F] [DecidableEq F] [NatCast F] [IntCast F] [FOps F]

/-- Effect of a call (with the memory behind the pointers) on an object with vectors. -/
def execV (g : Gels F) (o : VOverlap F) : RawCall F → Call' (VOverlap F)
  | .setSrcGrid D P C => o.setSrcGrid D P C
  | .setPolygonPoints np A => o.setPolygonPoints np A
  | .findSrcCellIndices => lift' (o.findSrcCellIndices g)

/-- Effect of a sequence of calls. -/
def runV (g : Gels F) : VOverlap F → List (RawCall F) → Call' (VOverlap F)
  | o, [] => .ok o
  | o, c :: cs => do let o ← execV g o c; runV g o cs

theorem vok_new : VOk (VOverlap.new : VOverlap F) :=
  ⟨repOk_new, fun h => absurd rfl h, rfl, rfl, rfl, fun n h => by cases h⟩

theorem vok_src (hcast : ∀ k : Nat, ((k : Int) : F) = (k : F)) {v : VOverlap F} {m : Overlap F} (h : VOk v) (hs : Shows v.base m)
    {dims : Fin 2 → Nat} {per : Fin 2 → Int} {coords : Fin 2 → Nat → F} {D P : List Int} {C : List (List F)}
    (hp : Passed dims per coords D P C) (h1 : ∀ i, 1 ≤ dims i) (htot : dims 0 * dims 1 ≤ 2147483647) :
    ∃ v', v.setSrcGrid D P C = .ok v' ∧ VOk v' ∧ Shows v'.base (m.setSrcGrid dims per coords) := by
  obtain ⟨b, e, ho, hs'⟩ := setSrcGrid_shows hcast h.rep hs hp h1 htot
  obtain ⟨k, hsz⟩ := h.rep.sized
  obtain ⟨f, ef, hG, eqf⟩ := setGrid_hasGrid hcast hsz (n := 2) (by decide) (by decide) hp h1 (by rw [Fin.prod_univ_two]; exact htot)
  have e' := e
  unfold ROverlap.setSrcGrid at e'
  obtain ⟨_, -, e'⟩ := call_inv e'
  obtain ⟨_, -, e'⟩ := call_inv e'
  obtain ⟨_, -, e'⟩ := call_inv e'
  obtain ⟨f', e2, e'⟩ := call_inv e'
  rw [show (2 : Int) = ((2 : Nat) : Int) from rfl, ef] at e2
  obtain rfl := Except.ok.inj e2
  have e' := Except.ok.inj e'
  refine ⟨{ v with base := b }, by unfold VOverlap.setSrcGrid; rw [e]; rfl, ⟨ho, fun _ => ⟨dims, ?_⟩, ?_, h.lo, h.hi, ?_⟩, hs'⟩
  · rw [← e']; exact hG
  · rw [← e']
    exact (congrArg Finder.nitermax eqf).trans h.limit
  · rw [← e']
    exact h.poly

theorem vok_poly {v : VOverlap F} {m : Overlap F} (h : VOk v) (hs : Shows v.base m) {np : Nat} {pc : Nat → F} {A : List F}
    (hn : np ≤ 2147483647) (hA : ∀ k < 2 * np, A[k]? = some (pc k)) :
    ∃ v', v.setPolygonPoints (np : Int) A = .ok v' ∧ VOk v' ∧ Shows v'.base (m.setPolygonPoints np pc) := by
  obtain ⟨b, e, ho, hs'⟩ := setPolygon_shows h.rep hs hn hA
  have e' := e
  unfold ROverlap.setPolygonPoints at e'
  obtain ⟨w, -, e'⟩ := call_inv e'
  obtain ⟨w', -, e'⟩ := call_inv e'
  have e' := Except.ok.inj e'
  refine ⟨{ v with base := b }, by unfold VOverlap.setPolygonPoints; rw [e]; rfl, ⟨ho, ?_, ?_, h.lo, h.hi, ?_⟩, hs'⟩
  · rw [← e']; exact h.grid
  · rw [← e']; exact h.limit
  · intro n hn'
    have h3 : b.polyPoints = (List.range (2 * np)).map pc := congrArg Overlap.polyPoints hs'
    have h4 : b.numPolyPoints = some np := by rw [← e', toSize_nat (by omega)]
    have hn' : b.numPolyPoints = some n := hn'
    simp only [h4, Option.some.injEq] at hn'
    subst hn'
    show b.polyPoints.length = _
    rw [h3]; simp

theorem vok_find (hcast : ∀ k : Nat, ((k : Int) : F) = (k : F)) (g : Gels F) (hg : KeepsSizes g) {v : VOverlap F} {m : Overlap F} (h : VOk v)
    (hs : Shows v.base m) : Cxx.Rel (fun v' m' => VOk v' ∧ Shows v'.base m') (v.findSrcCellIndices g) (m.findSrcCellIndices g) := by
  rcases find_vr g hg h with ⟨v', r', e1, e2, q1, q2, q3, q4, q5, q6, q7, q8⟩ | ⟨e, e1, e2⟩
  · rcases find_shows g hcast h.rep hs with ⟨r2, m', e3, e4, ho, hs'⟩ | ⟨e, e3, -⟩
    · rw [e2] at e3
      obtain rfl := Except.ok.inj e3
      refine .inl ⟨v', m', e1, e4, ⟨⟨fun hz => ?_, ?_, ?_, ?_⟩, fun _ => q3, q4, q5, q6, ?_⟩, ?_⟩
      · obtain ⟨dims, hG⟩ := q3
        exact ⟨2, hG.sized⟩
      · rw [← q1] at ho
        rcases ho.dims with hz | ⟨d0, d1, hd, hpd, p0, p1, hp, -⟩
        · exact .inl hz
        · obtain ⟨dims, hG⟩ := q3
          exact .inr ⟨d0, d1, hd, hpd, p0, p1, hp, hG.sized⟩
      · rw [← q1] at ho; exact ho.num
      · rw [← q1] at ho; exact ho.eps
      · intro n hn
        rw [q8]
        exact h.poly n (by rw [← q7]; exact hn)
      · unfold Shows at hs' ⊢
        rw [← hs', ← q1]
        unfold toOverlap
        simp only [q2]
    · rw [e2] at e3; cases e3
  · rcases find_shows g hcast h.rep hs with ⟨r2, m', e3, -⟩ | ⟨e', e3, e4⟩
    · rw [e2] at e3; cases e3
    · rw [e2] at e3
      obtain rfl := Except.error.inj e3
      exact .inr ⟨e, e1, e4⟩

theorem runV_agree (g : Gels F) (hg : KeepsSizes g) (hcast : ∀ k : Nat, ((k : Int) : F) = (k : F)) {rcs : List (RawCall F)}
    {mcs : List (MeantCall F)} (h : List.Forall₂ Holds rcs mcs) : ∀ {v : VOverlap F} {m : Overlap F}, VOk v → Shows v.base m →
      (∃ v' m', runV g v rcs = .ok v' ∧ runMeant g m mcs = .ok m' ∧ Shows v'.base m') ∨
        ∃ u, runV g v rcs = .error (.undefined u) ∧ runMeant g m mcs = .error u := by
  induction h with
  | nil => intro v m _ hs; exact .inl ⟨v, m, rfl, rfl, hs⟩
  | cons hc _ ih =>
    intro v m ho hs
    cases hc with
    | grid hp h1 htot =>
      obtain ⟨o', e, ho', hs'⟩ := vok_src hcast ho hs hp h1 htot
      unfold runV runMeant execV MeantCall.exec
      dsimp only
      rw [e]
      exact ih ho' hs'
    | polygon hn hA =>
      obtain ⟨o', e, ho', hs'⟩ := vok_poly ho hs hn hA
      unfold runV runMeant execV MeantCall.exec
      dsimp only
      rw [e]
      exact ih ho' hs'
    | find =>
      unfold runV runMeant execV MeantCall.exec
      dsimp only
      rcases vok_find hcast g hg ho hs with ⟨o', m', e, e', ho', hs'⟩ | ⟨u, e, e'⟩
      · rw [e, e']
        exact ih ho' hs'
      · rw [e, e']
        exact .inr ⟨u, rfl, rfl⟩

/-- **C134.** Any sequence of calls on a new object, in any order and with any repetition, with memory that holds what is meant, has on the
vectors of the object the outcome that the description without sizes has: no call throws, the same calls are undefined for the same
reason, and the cells reported are the same, as `int`s. -/
theorem C134_history (g : Gels F) (hg : KeepsSizes g) (hcast : ∀ k : Nat, ((k : Int) : F) = (k : F)) {rcs : List (RawCall F)}
    {mcs : List (MeantCall F)} (h : List.Forall₂ Holds rcs mcs) :
    (∃ v m, runV g VOverlap.new rcs = .ok v ∧ runMeant g FindOverlap.new mcs = .ok m ∧
      v.base.srcCellFlatInds = m.srcCellFlatInds.map fun x => SideIterator.toInt (toSize x)) ∨
    ∃ u, runV g VOverlap.new rcs = .error (.undefined u) ∧ runMeant g FindOverlap.new mcs = .error u := by
  rcases runV_agree g hg hcast h vok_new shows_new with ⟨v, m, e, e', hs⟩ | h
  · exact .inl ⟨v, m, e, e', congrArg Overlap.srcCellFlatInds hs⟩
  · exact .inr h

/-! ### Two negative counts -/

theorem vset_len {α : Type} {l l' : List α} {i : Nat} {x : α} (h : vset l i x = .ok l') : l'.length = l.length ∧ l' = l.set i x := by
  unfold vset at h
  split_ifs at h
  obtain rfl := Except.ok.inj h
  simp

theorem init_len {D : List Int} {c c' : List F × List F} (e : cornersInit D c = .ok c') (h : c.1.length = 2 ∧ c.2.length = 2) :
    c'.1.length = 2 ∧ c'.2.length = 2 := by
  unfold cornersInit at e
  refine forN_inv_ok (fun _ (x : List F × List F) => x.1.length = 2 ∧ x.2.length = 2) _ _ _ _ h ?_ e
  intro k x x' _ hx hr
  obtain ⟨_, -, hr⟩ := bind_ok_inv hr
  obtain ⟨_, -, hr⟩ := bind_ok_inv hr
  obtain ⟨l, h1, hr⟩ := bind_ok_inv hr
  obtain ⟨u, h2, hr⟩ := bind_ok_inv hr
  obtain rfl := Except.ok.inj hr
  exact ⟨(vset_len h1).1.trans hx.1, (vset_len h2).1.trans hx.2⟩

theorem update_len {D : List Int} {d : List F} {c c' : List F × List F} (e : cornersUpdate D d c = .ok c') (h : c.1.length = 2 ∧ c.2.length = 2) :
    c'.1.length = 2 ∧ c'.2.length = 2 := by
  unfold cornersUpdate at e
  refine forN_inv_ok (fun _ (x : List F × List F) => x.1.length = 2 ∧ x.2.length = 2) _ _ _ _ h ?_ e
  intro k x x' _ hx hr
  obtain ⟨_, -, hr⟩ := bind_ok_inv hr
  obtain ⟨_, -, hr⟩ := bind_ok_inv hr
  obtain ⟨l, h1, hr⟩ := bind_ok_inv hr
  obtain ⟨_, -, hr⟩ := bind_ok_inv hr
  obtain ⟨u, h2, hr⟩ := bind_ok_inv hr
  obtain ⟨_, -, hr⟩ := bind_ok_inv hr
  obtain ⟨l', h3, hr⟩ := bind_ok_inv hr
  obtain ⟨_, -, hr⟩ := bind_ok_inv hr
  obtain ⟨_, -, hr⟩ := bind_ok_inv hr
  obtain ⟨_, -, hr⟩ := bind_ok_inv hr
  obtain ⟨u', h4, hr⟩ := bind_ok_inv hr
  obtain rfl := Except.ok.inj hr
  exact ⟨((vset_len h3).1.trans (vset_len h1).1).trans hx.1, ((vset_len h4).1.trans (vset_len h2).1).trans hx.2⟩

/-- What every call keeps, whatever its arguments. -/
def FreshCorners (v : VOverlap F) : Prop := v.loIndxCorner.length = 2 ∧ v.hiIndxCorner.length = 2 ∧ v.base.eps = 1 / ((100 : Nat) : F)

theorem plain_src {v v' : VOverlap F} (h : FreshCorners v) {D P : List Int} {C : List (List F)} (e : v.setSrcGrid D P C = .ok v') : FreshCorners v' := by
  unfold VOverlap.setSrcGrid ROverlap.setSrcGrid at e
  obtain ⟨b, e1, e⟩ := call_inv e
  obtain ⟨_, -, e1⟩ := call_inv e1
  obtain ⟨_, -, e1⟩ := call_inv e1
  obtain ⟨_, -, e1⟩ := call_inv e1
  obtain ⟨_, -, e1⟩ := call_inv e1
  obtain rfl := Except.ok.inj e1
  obtain rfl := Except.ok.inj e
  exact h

theorem plain_poly {v v' : VOverlap F} (h : FreshCorners v) {np : Int} {A : List F} (e : v.setPolygonPoints np A = .ok v') : FreshCorners v' := by
  unfold VOverlap.setPolygonPoints ROverlap.setPolygonPoints at e
  obtain ⟨b, e1, e⟩ := call_inv e
  obtain ⟨_, -, e1⟩ := call_inv e1
  obtain ⟨_, -, e1⟩ := call_inv e1
  obtain rfl := Except.ok.inj e1
  obtain rfl := Except.ok.inj e
  exact h

theorem plain_find (g : Gels F) {v v' : VOverlap F} (h : FreshCorners v) (e : v.findSrcCellIndices g = .ok v') : FreshCorners v' := by
  unfold VOverlap.findSrcCellIndices at e
  obtain ⟨⟨f, c⟩, e1, e⟩ := bind_ok_inv e
  obtain ⟨_, -, e⟩ := bind_ok_inv e
  obtain ⟨_, -, e⟩ := bind_ok_inv e
  obtain ⟨_, -, e⟩ := bind_ok_inv e
  obtain ⟨_, -, e⟩ := bind_ok_inv e
  obtain rfl := Except.ok.inj e
  unfold VOverlap.findFloatIndexBoxOfPolygon at e1
  obtain ⟨_, -, e1⟩ := bind_ok_inv e1
  obtain ⟨_, -, e1⟩ := bind_ok_inv e1
  obtain ⟨c0, h0, e1⟩ := bind_ok_inv e1
  have hc0 := init_len h0 ⟨h.1, h.2.1⟩
  cases hn : v.base.numPolyPoints with
  | none => rw [hn] at e1; cases e1
  | some n =>
    rw [hn] at e1
    have := forN_inv_ok (fun _ (x : Raw F × List F × List F) => x.2.1.length = 2 ∧ x.2.2.length = 2) _ _ _ _ hc0 (by
      intro k x x' _ hx hr
      unfold pointV at hr
      obtain ⟨_, -, hr⟩ := bind_ok_inv hr
      obtain ⟨_, -, hr⟩ := bind_ok_inv hr
      obtain ⟨c, hc, hr⟩ := bind_ok_inv hr
      obtain rfl := Except.ok.inj hr
      exact update_len hc hx) e1
    exact ⟨this.1, this.2, h.2.2⟩

theorem plain_run (g : Gels F) : ∀ (cs : List (RawCall F)) (v v' : VOverlap F), FreshCorners v → runV g v cs = .ok v' → FreshCorners v'
  | [], _, _, h, e => by obtain rfl := Except.ok.inj e; exact h
  | c :: cs, v, v', h, e => by
    unfold runV at e
    obtain ⟨v1, e1, e⟩ := call_inv e
    refine plain_run g cs v1 v' ?_ e
    cases c with
    | setSrcGrid D P C => exact plain_src h e1
    | setPolygonPoints np A => exact plain_poly h e1
    | findSrcCellIndices => exact plain_find g h (lift_inv e1)

end generic

section exact
variable {K : Type} [Field K] [LinearOrder K] [IsStrictOrderedRing K] [FloorRing K] [FOps K] [FOpsLaws K]

/-- Corners between the bound and 0. -/
def Between (m0 m1 : Int) (c : List K × List K) : Prop :=
  ∃ l0 l1 h0 h1, c = ([l0, l1], [h0, h1]) ∧ ((m0 : K) ≤ l0 ∧ l0 ≤ 0) ∧ ((m1 : K) ≤ l1 ∧ l1 ≤ 0) ∧ ((m0 : K) ≤ h0 ∧ h0 ≤ 0) ∧ (m1 : K) ≤ h1 ∧ h1 ≤ 0

theorem between_update {d0 d1 m0 m1 : Int} (e0 : isub d0 1 = .ok m0) (e1 : isub d1 1 = .ok m1) (n0 : m0 ≤ 0) (n1 : m1 ≤ 0) {d : List K}
    {c c' : List K × List K} (h : Between m0 m1 c) (e : cornersUpdate [d0, d1] d c = .ok c') : Between m0 m1 c' := by
  obtain ⟨l0, l1, h0, h1, rfl, a1, a2, a3, a4⟩ := h
  unfold cornersUpdate at e
  obtain ⟨x, y, r1, r2, r3⟩ := forTwo_inv (n := 0) e
  obtain rfl := r3 rfl
  obtain ⟨v0, -, r1⟩ := bind_ok_inv r1
  obtain ⟨v1, -, r2⟩ := bind_ok_inv r2
  simp [vget, vset, e0, bind, Except.bind, pure, Except.pure] at r1
  subst r1
  simp [vget, vset, e1, bind, Except.bind, pure, Except.pure] at r2
  subst r2
  have q0 : (m0 : K) ≤ 0 := by exact_mod_cast n0
  have q1 : (m1 : K) ≤ 0 := by exact_mod_cast n1
  refine ⟨_, _, _, _, rfl, ⟨?_, ?_⟩, ⟨?_, ?_⟩, ⟨?_, ?_⟩, ?_, ?_⟩ <;> split_ifs <;> linarith [a1.1, a1.2, a2.1, a2.2, a3.1, a3.2, a4.1, a4.2]

theorem between_box {d0 d1 m0 m1 : Int} (e0 : isub d0 1 = .ok m0) (e1 : isub d1 1 = .ok m1) {c : List K × List K} (h : Between m0 m1 c)
    (b0 : -2147483648 ≤ m0) (b1 : -2147483648 ≤ m1) :
    boxIndsV (1 / ((100 : Nat) : K)) [d0, d1] c 0 = .ok (0, m0) ∧ boxIndsV (1 / ((100 : Nat) : K)) [d0, d1] c 1 = .ok (0, m1) := by
  obtain ⟨l0, l1, h0, h1, rfl, a1, a2, a3, a4⟩ := h
  have key : ∀ (m : Int) (l u : K), -2147483648 ≤ m → ((m : K) ≤ l ∧ l ≤ 0) → ((m : K) ≤ u ∧ u ≤ 0) →
      ∃ k k', FOps.floorI l = some k ∧ k ≤ 0 ∧ ceilI (u + 1 / ((100 : Nat) : K)) = some k' ∧ m ≤ k' := by
    intro m l u hm hl hu
    have f1 : m ≤ ⌊l⌋ := Int.le_floor.2 hl.1
    have f2 : ⌊l⌋ ≤ 0 := by
      have : ((⌊l⌋ : Int) : K) ≤ 0 := (Int.floor_le l).trans hl.2
      exact_mod_cast this
    have f3 : ⌊-(u + 1 / ((100 : Nat) : K))⌋ ≤ -m := by
      have h1 : ((⌊-(u + 1 / ((100 : Nat) : K))⌋ : Int) : K) ≤ -(u + 1 / ((100 : Nat) : K)) := Int.floor_le _
      have h2 : (0 : K) < 1 / ((100 : Nat) : K) := by norm_num
      have h3 : ((⌊-(u + 1 / ((100 : Nat) : K))⌋ : Int) : K) ≤ ((-m : Int) : K) := by push_cast; linarith [hu.1]
      exact_mod_cast h3
    have f4 : -1 ≤ ⌊-(u + 1 / ((100 : Nat) : K))⌋ := by
      apply Int.le_floor.2
      have h2 : (1 : K) / ((100 : Nat) : K) ≤ 1 := by norm_num
      push_cast
      linarith [hu.2]
    have f5 : ⌊-(u + 1 / ((100 : Nat) : K))⌋ < -m := by
      rw [Int.floor_lt]
      have h2 : (0 : K) < 1 / ((100 : Nat) : K) := by norm_num
      push_cast
      linarith [hu.1]
    have g1 := FOpsLaws.floorI l (by unfold inI32; omega)
    have g2 := FOpsLaws.floorI (-(u + 1 / ((100 : Nat) : K))) (by unfold inI32; omega)
    refine ⟨_, _, g1, f2, by unfold ceilI; rw [g2]; rfl, by show m ≤ -⌊-(u + 1 / ((100 : Nat) : K))⌋; omega⟩
  obtain ⟨k, k', g1, g2, g3, g4⟩ := key m0 l0 h0 b0 a1 a3
  obtain ⟨j, j', g5, g6, g7, g8⟩ := key m1 l1 h1 b1 a2 a4
  unfold boxIndsV floorInt
  simp only [vget, List.getElem?_cons_zero, List.getElem?_cons_succ, bind, Except.bind, pure, Except.pure, g1, g3, g5, g7, e0, e1]
  refine ⟨congrArg Except.ok (Prod.ext ?_ ?_), congrArg Except.ok (Prod.ext ?_ ?_)⟩ <;> dsimp only <;> split_ifs <;> omega

/-- The index box for two negative counts. -/
def negBox (a b : Nat) : BoxIterator.Box where
  lowEnd := [0, 0]
  dims := [-(a : Int) - 1, -(b : Int) - 1]
  dimProd := [-(b : Int) - 1, 1]
  numElems := (((a + 1) * (b + 1) : Nat) : Int)

theorem elem_negative {a b : Nat} (ha : 1 ≤ a) (hb : 1 ≤ b) (hp : (a + 1) * (b + 1) ≤ 2147483647) {i : Nat} (hi : i < (a + 1) * (b + 1)) :
    (do
      let e ← (BoxIterator.Box.getElement (negBox a b) i)
      cellIndxR [-(b : Int), 1] e) = .ok ((i / (b + 1) * b + i % (b + 1) : Nat) : Int) := by
  have b0 : a + 1 ≤ 2147483647 := (Nat.le_mul_of_pos_right _ (by omega)).trans hp
  have b1 : b + 1 ≤ 2147483647 := (Nat.le_mul_of_pos_left _ (by omega)).trans hp
  have hq : i / (b + 1) < a + 1 := Nat.div_lt_of_lt_mul (by rwa [Nat.mul_comm])
  have hr : i % (b + 1) < b + 1 := Nat.mod_lt _ (by omega)
  have eb : -(b : Int) - 1 = -((b + 1 : Nat) : Int) := by push_cast; ring
  have ea : -(a : Int) - 1 = -((a + 1 : Nat) : Int) := by push_cast; ring
  unfold negBox
  rw [ea, eb]
  have t1 : ((i : Nat) : Int).tdiv (-((b + 1 : Nat) : Int)) = -((i / (b + 1) : Nat) : Int) := by
    rw [Int.tdiv_neg, Int.ofNat_tdiv]
  have t2 : ((i : Nat) : Int).tmod (-((b + 1 : Nat) : Int)) = ((i % (b + 1) : Nat) : Int) := by
    rw [Int.tmod_neg]; rfl
  have t3 : (-((i / (b + 1) : Nat) : Int)).tdiv (-((a + 1 : Nat) : Int)) = 0 := by
    rw [Int.tdiv_neg, Int.neg_tdiv, neg_neg]
    show (((i / (b + 1)) / (a + 1) : Nat) : Int) = 0
    rw [Nat.div_eq_of_lt hq]; rfl
  have t4 : (-((i / (b + 1) : Nat) : Int)).tmod (-((a + 1 : Nat) : Int)) = -((i / (b + 1) : Nat) : Int) := by
    rw [Int.tmod_neg, Int.neg_tmod]
    congr 1
    show (((i / (b + 1)) % (a + 1) : Nat) : Int) = _
    rw [Nat.mod_eq_of_lt hq]
  have z0 : -((a + 1 : Nat) : Int) ≠ 0 := by push_cast; omega
  have z1 : -((b + 1 : Nat) : Int) ≠ 0 := by push_cast; omega
  have hdiv : i / (b + 1) ≤ i := Nat.div_le_self _ _
  have hm : i / (b + 1) * b + i % (b + 1) ≤ i := by
    have := Nat.div_add_mod i (b + 1)
    nlinarith [Nat.zero_le (i / (b + 1))]
  generalize i / (b + 1) = q at *
  generalize i % (b + 1) = r at *
  have hm' : q * b ≤ i := by omega
  have k1 : inI32 (-((q : Nat) : Int)) := by unfold inI32; omega
  have k2 : inI32 0 := by unfold inI32; omega
  have k4 : inI32 ((i : Nat) : Int) := by unfold inI32; omega
  have k5 : inI32 ((r : Nat) : Int) := by unfold inI32; omega
  have k6 : imul (-(b : Int)) (-(q : Int)) = .ok ((q * b : Nat) : Int) := by
    unfold imul chk
    rw [show -(b : Int) * -(q : Int) = ((q * b : Nat) : Int) by push_cast; ring]
    rw [if_pos (by unfold inI32; omega)]
  have k7 : imul 1 (r : Int) = .ok (r : Int) := by
    unfold imul chk
    rw [one_mul, if_pos k5]
  unfold BoxIterator.Box.getElement cellIndxR
  simp only [idiv, imod, iadd, chk, BoxIterator.getElementLoop, if_neg z0, if_neg z1, t1, t2, t3, t4, Int.tdiv_one, one_ne_zero, if_false, zero_add,
    if_pos k1, if_pos k2, if_pos k4, if_pos k5, forN, forFrom, vget, List.getElem?_cons_zero, List.getElem?_cons_succ, bind,
    Except.bind, pure, Except.pure, k6, k7, toSize_add]
  show Except.ok (narrow (((q * b : Nat) : Int) + (r : Int))) = _
  rw [narrow_id (by unfold inI32; omega)]
  push_cast; rfl

/-- **C134, two negative counts.** After any calls with any arguments, a source grid of `-a` × `-b` nodes and a polygon: if the calls return,
`(a + 1) * (b + 1)` cells are reported, whatever the grid and the polygon. -/
theorem C134_negative_source (g : Gels K) {cs : List (RawCall K)} {o o1 o2 o3 : VOverlap K} (hrun : runV g VOverlap.new cs = .ok o)
    {a b : Nat} (ha : 1 ≤ a) (hb : 1 ≤ b) (hab : (a + 1) * (b + 1) ≤ 2147483647) (P : List Int) (C : List (List K)) (np : Int) (A : List K)
    (h1 : o.setSrcGrid [-(a : Int), -(b : Int)] P C = .ok o1) (h2 : o1.setPolygonPoints np A = .ok o2) (h3 : o2.findSrcCellIndices g = .ok o3) :
    o3.base.srcCellFlatInds = (List.range ((a + 1) * (b + 1))).map fun i => ((i / (b + 1) * b + i % (b + 1) : Nat) : Int) := by
  have b0 : a + 1 ≤ 2147483647 := (Nat.le_mul_of_pos_right _ (by omega)).trans hab
  have b1 : b + 1 ≤ 2147483647 := (Nat.le_mul_of_pos_left _ (by omega)).trans hab
  have hpl := plain_poly (plain_src (plain_run g cs _ _ ⟨rfl, rfl, rfl⟩ hrun) h1) h2
  have hds : o2.base.srcNodeDims = [-(a : Int), -(b : Int)] ∧ o2.base.srcCellProdDims = [-(b : Int), 1] := by
    unfold VOverlap.setSrcGrid ROverlap.setSrcGrid at h1
    obtain ⟨B, e1, h1⟩ := call_inv h1
    obtain ⟨x0, r0, e1⟩ := call_inv e1
    obtain ⟨x1, r1, e1⟩ := call_inv e1
    obtain ⟨p, r2, e1⟩ := call_inv e1
    obtain ⟨_, -, e1⟩ := call_inv e1
    obtain rfl := Except.ok.inj e1
    obtain rfl := Except.ok.inj h1
    obtain rfl : -(a : Int) = x0 := Except.ok.inj (lift_inv r0)
    obtain rfl : -(b : Int) = x1 := Except.ok.inj (lift_inv r1)
    have r2 := lift_inv r2
    unfold imul chk at r2
    split_ifs at r2
    rw [one_mul] at r2
    obtain rfl := Except.ok.inj r2
    unfold VOverlap.setPolygonPoints ROverlap.setPolygonPoints at h2
    obtain ⟨B2, e2, h2⟩ := call_inv h2
    obtain ⟨_, -, e2⟩ := call_inv e2
    obtain ⟨_, -, e2⟩ := call_inv e2
    obtain rfl := Except.ok.inj e2
    obtain rfl := Except.ok.inj h2
    exact ⟨rfl, rfl⟩
  have e0 : isub (-(a : Int)) 1 = .ok (-(a : Int) - 1) := by unfold isub chk; rw [if_pos (by unfold inI32; omega)]
  have e1 : isub (-(b : Int)) 1 = .ok (-(b : Int) - 1) := by unfold isub chk; rw [if_pos (by unfold inI32; omega)]
  unfold VOverlap.findSrcCellIndices at h3
  obtain ⟨⟨f, c⟩, q1, h3⟩ := bind_ok_inv h3
  have hbt : Between (-(a : Int) - 1) (-(b : Int) - 1) c := by
    unfold VOverlap.findFloatIndexBoxOfPolygon at q1
    obtain ⟨_, -, q1⟩ := bind_ok_inv q1
    obtain ⟨_, -, q1⟩ := bind_ok_inv q1
    obtain ⟨c0, q2, q1⟩ := bind_ok_inv q1
    rw [hds.1, init_ok e0 e1 hpl.1 hpl.2.1] at q2
    obtain rfl := Except.ok.inj q2
    have z0 : ((-(a : Int) - 1 : Int) : K) ≤ 0 := by
      have : (-(a : Int) - 1 : Int) ≤ 0 := by omega
      exact_mod_cast this
    have z1 : ((-(b : Int) - 1 : Int) : K) ≤ 0 := by
      have : (-(b : Int) - 1 : Int) ≤ 0 := by omega
      exact_mod_cast this
    cases hn : o2.base.numPolyPoints with
    | none => rw [hn] at q1; cases q1
    | some n =>
      rw [hn] at q1
      refine forN_inv_ok (fun _ (x : Raw K × List K × List K) => Between (-(a : Int) - 1) (-(b : Int) - 1) x.2) _ _ _ _
        ⟨_, _, _, _, rfl, ⟨le_rfl, z0⟩, ⟨le_rfl, z1⟩, ⟨z0, le_rfl⟩, z1, le_rfl⟩ ?_ q1
      intro k x x' _ hx hr
      unfold pointV at hr
      obtain ⟨_, -, hr⟩ := bind_ok_inv hr
      obtain ⟨_, -, hr⟩ := bind_ok_inv hr
      obtain ⟨c, hc, hr⟩ := bind_ok_inv hr
      obtain rfl := Except.ok.inj hr
      rw [hds.1] at hc
      exact between_update e0 e1 (by omega) (by omega) hx hc
  obtain ⟨x0, r0, h3⟩ := bind_ok_inv h3
  obtain ⟨x1, r1, h3⟩ := bind_ok_inv h3
  obtain ⟨bx, r2, h3⟩ := bind_ok_inv h3
  obtain ⟨inds, r3, h3⟩ := bind_ok_inv h3
  obtain rfl := Except.ok.inj h3
  have hbx := between_box e0 e1 hbt (by omega) (by omega)
  rw [hpl.2.2, hds.1] at r0 r1
  rw [hbx.1] at r0
  rw [hbx.2] at r1
  obtain rfl := Except.ok.inj r0
  obtain rfl := Except.ok.inj r1
  have q2 : (-(a : Int) - 1) * (-(b : Int) - 1) = (((a + 1) * (b + 1) : Nat) : Int) := by push_cast; ring
  have hnew : BoxIterator.new [((0 : Int), -(a : Int) - 1), (0, -(b : Int) - 1)] = .ok (negBox a b) := by
    have i0 : inI32 (-(a : Int) - 1) := by unfold inI32; omega
    have i1 : inI32 (-(b : Int) - 1) := by unfold inI32; omega
    have i2 : inI32 (((a + 1) * (b + 1) : Nat) : Int) := by unfold inI32; omega
    unfold negBox
    simp only [BoxIterator.new, BoxIterator.mkDims, BoxIterator.mkNumElems, BoxIterator.mkDimProd, isub, imul, chk, sub_zero, if_pos i0, if_pos i1,
      one_mul, q2, if_pos i2, bind, Except.bind, pure, Except.pure, vget, List.getElem?_cons_zero, List.map_cons, List.map_nil]
  rw [hnew] at r2
  obtain rfl := Except.ok.inj r2
  have hc := collect_ok _ _ _ fun i hi => elem_negative ha hb hab (i := i) hi
  rw [hds.2] at r3
  simp only [bind_assoc] at hc
  have hnum : (BoxIterator.Box.getNumberOfElements (negBox a b)).toNat = (a + 1) * (b + 1) := Int.toNat_natCast _
  rw [hnum, hc] at r3
  exact (Except.ok.inj r3).symm

/-- **C134, refuted for two negative counts**: among the numbers is `a * b + b`, although the arrays hold `a * b` nodes. -/
theorem C134_negative_source_refuted (g : Gels K) {a b : Nat} (ha : 1 ≤ a) (hb : 1 ≤ b) (hab : (a + 1) * (b + 1) ≤ 2147483647)
    {o1 o2 o3 : VOverlap K} (P : List Int) (C : List (List K)) (np : Int) (A : List K)
    (h1 : VOverlap.new.setSrcGrid [-(a : Int), -(b : Int)] P C = .ok o1) (h2 : o1.setPolygonPoints np A = .ok o2)
    (h3 : o2.findSrcCellIndices g = .ok o3) :
    o3.base.srcCellFlatInds.length = (a + 1) * (b + 1) ∧ ((a * b + b : Nat) : Int) ∈ o3.base.srcCellFlatInds := by
  rw [C134_negative_source g (cs := []) rfl ha hb hab P C np A h1 h2 h3]
  refine ⟨by simp, List.mem_map.2 ⟨(b + 1) * a + b, List.mem_range.2 (by nlinarith), ?_⟩⟩
  rw [Nat.mul_add_div (by omega), Nat.mul_add_mod, Nat.div_eq_of_lt (by omega), Nat.mod_eq_of_lt (by omega), Nat.add_zero]

/-! ### Examples -/

open Sg.Witness

/-- The calls of C125's example, on vectors. -/
example := C134_history (F := ℚ) cramerGels cramerGels_contract.sizes (fun k => Int.cast_natCast k) (rcs := rawUse) (mcs := meantUse)
  (.cons (.polygon (by decide) (by decide +kernel)) <| .cons (.grid passed34 (by decide) (by decide)) <| .cons .find <|
    .cons (.polygon (by decide) (by decide +kernel)) <| .cons .find .nil)

example : (do
    let o ← runV cramerGels VOverlap.new rawUse
    return o.base.srcCellFlatInds : Call' (List Int)) = (do
    let o ← runRaw cramerGels ROverlap.new rawUse
    return o.srcCellFlatInds : Call' (List Int)) := by
  decide +kernel

/-- A source grid of -1 × -2 nodes and a point outside: six numbers. -/
example : (do
    let o ← (VOverlap.new : VOverlap ℚ).setSrcGrid [-1, -2] [0, 0] [[0, 1], [0, 1]]
    let o ← o.setPolygonPoints 1 [5, 5]
    let o ← lift' (o.findSrcCellIndices cramerGels)
    return o.base.srcCellFlatInds : Call' (List Int)) = .ok [0, 1, 2, 2, 3, 4] := by
  decide +kernel

end exact

end Sg.Props
