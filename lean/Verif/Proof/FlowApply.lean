import Verif.Model.FlowInterp
import Verif.Proof.Cxx
import Verif.Proof.Loops
import Verif.Proof.ConserveGrid
import Mathlib.Tactic.Ring
import Mathlib.Tactic.Linarith
import Mathlib.Tactic.NormNum
/- Flow interpolation: grids, table of weights and `apply`. -/
namespace Sg.FlowInterp
open Sg.LinearSolve Sg.Triangulate Sg.QuadIntersect Sg.FindPoint Sg.QuadLine Sg.QuadFlows Sg.BoxIterator

/-! ### Iterators over two axes -/

/-- The iterator over `a` times `b` places. -/
def box2 (a b : Nat) : BoxIterator.Box :=
  { lowEnd := [0, 0], dims := [(a : Int), (b : Int)], dimProd := [(b : Int), 1], numElems := (a : Int) * b }

theorem chk_nat {n : Nat} (h : n ≤ 2147483647) : chk (n : Int) = .ok (n : Int) := by
  unfold chk; rw [if_pos]; exact ⟨by omega, by omega⟩

theorem new2 {a b : Nat} (ha : a ≤ 2147483647) (hb : b ≤ 2147483647) (h : a * b ≤ 2147483647) :
    BoxIterator.new [(0, (a : Int)), (0, (b : Int))] = .ok (box2 a b) := by
  have e1 : chk (a : Int) = .ok (a : Int) := chk_nat ha
  have e2 : chk (b : Int) = .ok (b : Int) := chk_nat hb
  have e3 : chk ((a : Int) * b) = .ok ((a : Int) * b) := by exact_mod_cast chk_nat h
  simp [BoxIterator.new, mkDims, mkNumElems, mkDimProd, isub, imul, e1, e2, e3, vget, box2, bind, Except.bind, pure, Except.pure]

theorem bind_eq {α β : Type} {x : Cxx α} {a : α} {f : α → Cxx β} {r : Cxx β} (h : x = .ok a) (h' : f a = r) : (x >>= f) = r := by
  subst h; exact h'

theorem forN4 {σ : Type} {f : Nat → σ → Cxx σ} {s0 s1 s2 s3 s4 : σ} (h0 : f 0 s0 = .ok s1) (h1 : f 1 s1 = .ok s2)
    (h2 : f 2 s2 = .ok s3) (h3 : f 3 s3 = .ok s4) : forN 4 s0 f = .ok s4 := by
  simp [forN, forFrom, h0, h1, h2, h3]

theorem getElement2 {a b i : Nat} (ha : 1 ≤ a) (hb : 1 ≤ b) (ha' : a ≤ 2147483647) (hb' : b ≤ 2147483647)
    (hi : i ≤ 2147483647) :
    (box2 a b).getElement (i : Int) = .ok [((i / b % a : Nat) : Int), ((i % b : Nat) : Int)] := by
  have hb0 : (b : Int) ≠ 0 := by omega
  have ha0 : (a : Int) ≠ 0 := by omega
  have d1 : idiv (i : Int) (b : Int) = .ok ((i / b : Nat) : Int) := by
    unfold idiv; rw [if_neg hb0, ← Int.ofNat_tdiv]; exact chk_nat ((Nat.div_le_self _ _).trans hi)
  have d2 : idiv (i : Int) 1 = .ok (i : Int) := by
    unfold idiv; rw [if_neg (by omega), Int.tdiv_one]; exact chk_nat hi
  have m : ∀ (x c : Nat), 1 ≤ c → x ≤ 2147483647 → imod (x : Int) (c : Int) = .ok ((x % c : Nat) : Int) := by
    intro x c hc hx
    unfold imod
    have hq : x / c ≤ 2147483647 := (Nat.div_le_self _ _).trans hx
    have hin : inI32 ((x / c : Nat) : Int) := by
      generalize x / c = q at hq
      exact ⟨by omega, by omega⟩
    rw [if_neg (by omega), ← Int.ofNat_tdiv, if_pos hin]
    rfl
  have m1 := m (i / b) a ha ((Nat.div_le_self _ _).trans hi)
  have m2 := m i b hb hi
  have k1 : i / b % a < a := Nat.mod_lt _ ha
  have k2 : i % b < b := Nat.mod_lt _ hb
  have a1 : iadd 0 ((i / b % a : Nat) : Int) = .ok ((i / b % a : Nat) : Int) := by
    unfold iadd; rw [Int.zero_add]; exact chk_nat (by omega)
  have a2 : iadd 0 ((i % b : Nat) : Int) = .ok ((i % b : Nat) : Int) := by
    unfold iadd; rw [Int.zero_add]; exact chk_nat (by omega)
  simp only [Box.getElement, box2, getElementLoop, d1, d2, m1, m2, a1, a2, bind, Except.bind, pure, Except.pure]

theorem getIndex2 {a b x y : Nat} (h : a * b ≤ 2147483647) (hx : x < a) (hy : y < b) :
    (box2 a b).getIndex [(x : Int), (y : Int)] = .ok ((x * b + y : Nat) : Int) := by
  have h1 : (x + 1) * b ≤ a * b := Nat.mul_le_mul_right _ hx
  have h2 : (x + 1) * b = x * b + b := by ring
  have hxb : x * b ≤ 2147483647 := by omega
  have hbx : x ≤ 2147483647 := by
    have : x * 1 ≤ x * b := Nat.mul_le_mul_left _ (by omega)
    omega
  have s1 : isub (x : Int) 0 = .ok (x : Int) := by unfold isub; rw [Int.sub_zero]; exact chk_nat hbx
  have s2 : isub (y : Int) 0 = .ok (y : Int) := by unfold isub; rw [Int.sub_zero]; exact chk_nat (by omega)
  have m1 : imul (x : Int) (b : Int) = .ok ((x * b : Nat) : Int) := by
    unfold imul; exact_mod_cast chk_nat hxb
  have m2 : imul (y : Int) 1 = .ok (y : Int) := by unfold imul; rw [Int.mul_one]; exact chk_nat (by omega)
  have a1 : iadd 0 ((x * b : Nat) : Int) = .ok ((x * b : Nat) : Int) := by
    unfold iadd; rw [Int.zero_add]; exact chk_nat hxb
  have a2 : iadd ((x * b : Nat) : Int) (y : Int) = .ok ((x * b + y : Nat) : Int) := by
    unfold iadd; exact_mod_cast chk_nat (by omega)
  simp only [Box.getIndex, box2, getIndexLoop, s1, s2, m1, m2, a1, a2, bind, Except.bind]

section
set_option linter.unusedSectionVars false
variable {F : Type} [Zero F] [One F] [Add F] [Sub F] [Mul F] [Div F] [Neg F] [LT F] [DecidableLT F]
  [LE F] [DecidableLE F] [DecidableEq F] [NatCast F] [IntCast F] [FOps F]

/-! ### Grids -/

/-- Filling an array of pairs. -/
theorem fill_ok (n : Nat) (f h : Nat → F) (x y : List F) (hx : n ≤ x.length) (hy : n ≤ y.length) :
    ∃ v1 v2, (forN n (List.replicate (2 * n) (0 : F)) fun i v => do
        let c ← vget x i
        vset v (i * 2 + 0) (c + f i)) = .ok v1 ∧
      (forN n v1 fun i v => do
        let c ← vget y i
        vset v (i * 2 + 1) (c + h i)) = .ok v2 ∧ v2.length = 2 * n ∧
      ∀ k < n, v2[k * 2]? = some (x.getD k 0 + f k) ∧ v2[k * 2 + 1]? = some (y.getD k 0 + h k) := by
  obtain ⟨v1, e1, l1, p1⟩ := forN_inv (fun i v => v.length = 2 * n ∧ ∀ k < i, v[k * 2]? = some (x.getD k 0 + f k))
    (fun i v => do
      let c ← vget x i
      vset v (i * 2 + 0) (c + f i)) n (List.replicate (2 * n) (0 : F)) ⟨by simp, by intro k hk; omega⟩ (by
      rintro i v hi ⟨hl, hp⟩
      have h1 : vget x i = .ok (x.getD i 0) := vget_eq_ok.mpr (Conserve.getD_of_lt (by omega))
      refine ⟨v.set (i * 2 + 0) (x.getD i 0 + f i), ?_, ?_, ?_⟩
      · simp only [h1, bind, Except.bind]
        exact vset_ok (by omega)
      · simpa using hl
      · intro k hk
        rcases Nat.lt_succ_iff_lt_or_eq.mp hk with h | rfl
        · rw [List.getElem?_set_ne (by omega)]; exact hp k h
        · rw [show k * 2 + 0 = k * 2 from rfl, List.getElem?_set_self (by omega)])
  obtain ⟨v2, e2, l2, p2, q2⟩ := forN_inv (fun i v => v.length = 2 * n ∧ (∀ k < n, v[k * 2]? = some (x.getD k 0 + f k)) ∧
      ∀ k < i, v[k * 2 + 1]? = some (y.getD k 0 + h k))
    (fun i v => do
      let c ← vget y i
      vset v (i * 2 + 1) (c + h i)) n v1 ⟨l1, p1, by intro k hk; omega⟩ (by
      rintro i v hi ⟨hl, hp, hq⟩
      have h1 : vget y i = .ok (y.getD i 0) := vget_eq_ok.mpr (Conserve.getD_of_lt (by omega))
      refine ⟨v.set (i * 2 + 1) (y.getD i 0 + h i), ?_, ?_, ?_, ?_⟩
      · simp only [h1, bind, Except.bind]
        exact vset_ok (by omega)
      · simpa using hl
      · intro k hk
        rw [List.getElem?_set_ne (by omega)]; exact hp k hk
      · intro k hk
        rcases Nat.lt_succ_iff_lt_or_eq.mp hk with h | rfl
        · rw [List.getElem?_set_ne (by omega)]; exact hq k h
        · rw [List.getElem?_set_self (by omega)])
  exact ⟨v1, v2, e1, e2, l2, fun k hk => ⟨p2 k hk, q2 k hk⟩⟩

/-- The same without the terms added. -/
theorem fill_ok' (n : Nat) (x y : List F) (hx : n ≤ x.length) (hy : n ≤ y.length) :
    ∃ v1 v2, (forN n (List.replicate (2 * n) (0 : F)) fun i v => do
        let c ← vget x i
        vset v (i * 2 + 0) c) = .ok v1 ∧
      (forN n v1 fun i v => do
        let c ← vget y i
        vset v (i * 2 + 1) c) = .ok v2 ∧ v2.length = 2 * n ∧
      ∀ k < n, v2[k * 2]? = some (x.getD k 0) ∧ v2[k * 2 + 1]? = some (y.getD k 0) := by
  obtain ⟨v1, e1, l1, p1⟩ := forN_inv (fun i v => v.length = 2 * n ∧ ∀ k < i, v[k * 2]? = some (x.getD k 0))
    (fun i v => do
      let c ← vget x i
      vset v (i * 2 + 0) c) n (List.replicate (2 * n) (0 : F)) ⟨by simp, by intro k hk; omega⟩ (by
      rintro i v hi ⟨hl, hp⟩
      have h1 : vget x i = .ok (x.getD i 0) := vget_eq_ok.mpr (Conserve.getD_of_lt (by omega))
      refine ⟨v.set (i * 2 + 0) (x.getD i 0), ?_, ?_, ?_⟩
      · simp only [h1, bind, Except.bind]
        exact vset_ok (by omega)
      · simpa using hl
      · intro k hk
        rcases Nat.lt_succ_iff_lt_or_eq.mp hk with h | rfl
        · rw [List.getElem?_set_ne (by omega)]; exact hp k h
        · rw [show k * 2 + 0 = k * 2 from rfl, List.getElem?_set_self (by omega)])
  obtain ⟨v2, e2, l2, p2, q2⟩ := forN_inv (fun i v => v.length = 2 * n ∧ (∀ k < n, v[k * 2]? = some (x.getD k 0)) ∧
      ∀ k < i, v[k * 2 + 1]? = some (y.getD k 0))
    (fun i v => do
      let c ← vget y i
      vset v (i * 2 + 1) c) n v1 ⟨l1, p1, by intro k hk; omega⟩ (by
      rintro i v hi ⟨hl, hp, hq⟩
      have h1 : vget y i = .ok (y.getD i 0) := vget_eq_ok.mpr (Conserve.getD_of_lt (by omega))
      refine ⟨v.set (i * 2 + 1) (y.getD i 0), ?_, ?_, ?_, ?_⟩
      · simp only [h1, bind, Except.bind]
        exact vset_ok (by omega)
      · simpa using hl
      · intro k hk
        rw [List.getElem?_set_ne (by omega)]; exact hp k hk
      · intro k hk
        rcases Nat.lt_succ_iff_lt_or_eq.mp hk with h | rfl
        · rw [List.getElem?_set_ne (by omega)]; exact hq k h
        · rw [List.getElem?_set_self (by omega)])
  exact ⟨v1, v2, e1, e2, l2, fun k hk => ⟨p2 k hk, q2 k hk⟩⟩

theorem nodeCoord_ok {v : List F} {k : Nat} {a b : F} (h1 : v[k * 2]? = some a) (h2 : v[k * 2 + 1]? = some b) :
    nodeCoord v (k : Int) = .ok (a, b) := by
  have e1 : vgetI v ((k : Int) * 2 + 0) = .ok a := by
    unfold vgetI
    rw [if_pos (by omega), show ((k : Int) * 2 + 0).toNat = k * 2 by omega]
    exact vget_eq_ok.mpr h1
  have e2 : vgetI v ((k : Int) * 2 + 1) = .ok b := by
    unfold vgetI
    rw [if_pos (by omega), show ((k : Int) * 2 + 1).toNat = k * 2 + 1 by omega]
    exact vget_eq_ok.mpr h2
  simp only [nodeCoord, e1, e2, bind, Except.bind, pure, Except.pure]

theorem srcNodeCoord_eq {v : List F} {k : Nat} (h : k < 1073741824) : srcNodeCoord v (k : Int) = nodeCoord v (k : Int) := by
  have e : imul (k : Int) 2 = .ok ((k : Int) * 2) := by
    have : inI32 ((k : Int) * 2) := by unfold inI32; omega
    simp only [imul, chk, if_pos this]
  simp only [srcNodeCoord, nodeCoord, e, bind, Except.bind]

theorem srcNodeCoord_ok {v : List F} {k : Nat} {a b : F} (h : k < 1073741824) (h1 : v[k * 2]? = some a)
    (h2 : v[k * 2 + 1]? = some b) : srcNodeCoord v (k : Int) = .ok (a, b) := by
  rw [srcNodeCoord_eq h, nodeCoord_ok h1 h2]

/-- A source grid of `n0` times `n1` nodes at `p k`. -/
structure SrcOk (n0 n1 : Nat) (p : Nat → Pt F) (s : Src F) : Prop where
  pos0 : 1 ≤ n0
  pos1 : 1 ≤ n1
  fits : n0 * n1 ≤ 1073741824
  numCells : s.numCells = (n0 - 1) * (n1 - 1)
  nodeIt : s.nodeIt = box2 n0 n1
  cellIt : s.cellIt = box2 (n0 - 1) (n1 - 1)
  edgeIt0 : s.edgeIt0 = box2 (n0 - 1) n1
  edgeIt1 : s.edgeIt1 = box2 n0 (n1 - 1)
  read : ∀ k < n0 * n1, srcNodeCoord s.coords (k : Int) = .ok (p k)

/-- A destination line of `n` nodes at `p k`. -/
structure DstOk (n : Nat) (p : Nat → Pt F) (s : Dst F) : Prop where
  pos : 1 ≤ n
  numCells : s.numCells = n - 1
  read : ∀ k < n, nodeCoord s.coords (k : Int) = .ok (p k)

/-- The nodes of the caller's arrays. -/
def nodeAt (x y : List F) (k : Nat) : Pt F := (x.getD k 0, y.getD k 0)

/-- The nodes of a line as stored. -/
def lineAt (pert : Nat → Nat → Nat → F) (n : Nat) (x y : List F) (k : Nat) : Pt F :=
  (x.getD k 0 + pert n 0 k, y.getD k 0 + pert n 1 k)

theorem setSrcGrid_ok (o : Flow F) {n0 n1 : Nat} (h0 : 1 ≤ n0) (h1 : 1 ≤ n1) (hf' : n0 * n1 ≤ 1073741824) {x y : List F}
    (hx : n0 * n1 ≤ x.length) (hy : n0 * n1 ≤ y.length) :
    ∃ s, o.setSrcGrid (n0, n1) x y = .ok { o with src := some s } ∧ SrcOk n0 n1 (nodeAt x y) s := by
  obtain ⟨v1, v2, e1, e2, l2, hv⟩ := fill_ok' (n0 * n1) x y hx hy
  have hf : n0 * n1 ≤ 2147483647 := hf'.trans (by decide)
  have c0 : ((n0 : Int) - 1) = ((n0 - 1 : Nat) : Int) := by omega
  have c1 : ((n1 : Int) - 1) = ((n1 - 1 : Nat) : Int) := by omega
  have b0 : n0 ≤ 2147483647 := (Nat.le_mul_of_pos_right _ h1).trans hf
  have b1 : n1 ≤ 2147483647 := (Nat.le_mul_of_pos_left _ h0).trans hf
  have f1 : (n0 - 1) * (n1 - 1) ≤ n0 * n1 := Nat.mul_le_mul (by omega) (by omega)
  have f2 : (n0 - 1) * n1 ≤ n0 * n1 := Nat.mul_le_mul_right _ (by omega)
  have f3 : n0 * (n1 - 1) ≤ n0 * n1 := Nat.mul_le_mul_left _ (by omega)
  have i1 : imul (n0 : Int) (n1 : Int) = .ok ((n0 * n1 : Nat) : Int) := by
    unfold imul; exact_mod_cast chk_nat hf
  have i2 : imul ((n0 - 1 : Nat) : Int) ((n1 - 1 : Nat) : Int) = .ok (((n0 - 1) * (n1 - 1) : Nat) : Int) := by
    unfold imul; exact_mod_cast chk_nat (f1.trans hf)
  refine ⟨{ coords := v2, numPoints := n0 * n1, numCells := (n0 - 1) * (n1 - 1), nodeIt := box2 n0 n1,
            cellIt := box2 (n0 - 1) (n1 - 1), edgeIt0 := box2 (n0 - 1) n1, edgeIt1 := box2 n0 (n1 - 1) }, ?_, ?_⟩
  · simp only [bind, Except.bind, pure, Except.pure] at e1 e2
    unfold Flow.setSrcGrid
    simp only [c0, c1, i1, i2, new2 b0 b1 hf, new2 (a := n0 - 1) (b := n1 - 1) (by omega) (by omega) (by omega),
      new2 (a := n0 - 1) (b := n1) (by omega) b1 (by omega), new2 (a := n0) (b := n1 - 1) b0 (by omega) (by omega),
      bind, Except.bind, pure, Except.pure, Int.toNat_natCast, e1, e2]
  · exact ⟨h0, h1, hf', rfl, rfl, rfl, rfl, rfl, fun k hk => srcNodeCoord_ok (by omega) (hv k hk).1 (hv k hk).2⟩

theorem setDstGrid_ok (pert : Nat → Nat → Nat → F) (o : Flow F) {n : Nat} (h : 1 ≤ n) {x y : List F}
    (hx : n ≤ x.length) (hy : n ≤ y.length) :
    ∃ d, o.setDstGrid pert n x y = .ok { o with dst := some d } ∧ DstOk n (lineAt pert n x y) d := by
  obtain ⟨v1, v2, e1, e2, l2, hv⟩ := fill_ok n (pert n 0) (pert n 1) x y hx hy
  refine ⟨{ coords := v2, numCells := n - 1 }, ?_, h, rfl, fun k hk => nodeCoord_ok (hv k hk).1 (hv k hk).2⟩
  simp only [bind, Except.bind, pure, Except.pure] at e1 e2
  unfold Flow.setDstGrid
  simp only [bind, Except.bind, pure, Except.pure, e1, e2]

theorem lineCoord_ok {n : Nat} {p : Nat → Pt F} {d : Dst F} (h : DstOk n p d) {k : Nat} (hk : k < d.numCells) :
    d.lineCoord k = .ok (p k, p (k + 1)) := by
  have := h.numCells
  unfold Dst.lineCoord
  rw [h.read (k + 0) (by omega), h.read (k + 1) (by omega)]
  rfl

/-- The corners of cell `k`. -/
def cellOf (n1 : Nat) (p : Nat → Pt F) (k : Nat) : Quad F := fun i =>
  match i with
  | 0 => p (k / (n1 - 1) * n1 + k % (n1 - 1))
  | 1 => p ((k / (n1 - 1) + 1) * n1 + k % (n1 - 1))
  | 2 => p ((k / (n1 - 1) + 1) * n1 + (k % (n1 - 1) + 1))
  | 3 => p (k / (n1 - 1) * n1 + (k % (n1 - 1) + 1))

theorem cell_split {n0 n1 k : Nat} (hk : k < (n0 - 1) * (n1 - 1)) :
    1 ≤ n1 - 1 ∧ 1 ≤ n0 - 1 ∧ k / (n1 - 1) < n0 - 1 ∧ k % (n1 - 1) < n1 - 1 := by
  have h1 : 1 ≤ n1 - 1 := by
    rcases Nat.eq_zero_or_pos (n1 - 1) with h | h
    · rw [h, Nat.mul_zero] at hk; omega
    · exact h
  have h2 := (Nat.div_lt_iff_lt_mul h1).mpr hk
  exact ⟨h1, Nat.lt_of_le_of_lt (Nat.zero_le _) h2, h2, Nat.mod_lt _ h1⟩

theorem quadCoord_ok {n0 n1 : Nat} {p : Nat → Pt F} {s : Src F} (h : SrcOk n0 n1 p s) {k : Nat} (hk : k < s.numCells) :
    s.quadCoord k = .ok (cellOf n1 p k) := by
  rw [h.numCells] at hk
  obtain ⟨h1, h2, h3, h4⟩ := cell_split hk
  have hle : (n0 - 1) * (n1 - 1) ≤ n0 * n1 := Nat.mul_le_mul (by omega) (by omega)
  have hfits : n0 * n1 ≤ 2147483647 := h.fits.trans (by decide)
  have b0 : n0 ≤ 2147483647 := (Nat.le_mul_of_pos_right _ h.pos1).trans hfits
  have b1 : n1 ≤ 2147483647 := (Nat.le_mul_of_pos_left _ h.pos0).trans hfits
  have e := getElement2 (a := n0 - 1) (b := n1 - 1) (i := k) h2 h1 (by omega) (by omega) (by omega)
  rw [Nat.mod_eq_of_lt h3] at e
  have corner : ∀ (i : Fin 4) (u v r c : Nat), offset2D i = ((u : Int), (v : Int)) → u ≤ 1 → v ≤ 1 → r < n0 - 1 → c < n1 - 1 →
      s.corner (r : Int) (c : Int) i = .ok (p ((r + u) * n1 + (c + v))) := by
    intro i u v r c ho hu hv hr hc
    have a1 : iadd (r : Int) (u : Int) = .ok ((r + u : Nat) : Int) := by
      unfold iadd; rw [← Int.natCast_add]; exact chk_nat (by omega)
    have a2 : iadd (c : Int) (v : Int) = .ok ((c + v : Nat) : Int) := by
      unfold iadd; rw [← Int.natCast_add]; exact chk_nat (by omega)
    have gi := getIndex2 (a := n0) (b := n1) (x := r + u) (y := c + v) hfits (by omega) (by omega)
    have hlt : (r + u) * n1 + (c + v) < n0 * n1 := by
      have : (r + u + 1) * n1 ≤ n0 * n1 := Nat.mul_le_mul_right _ (by omega)
      have e : (r + u + 1) * n1 = (r + u) * n1 + n1 := by ring
      omega
    unfold Src.corner
    simp only [ho, a1, a2, h.nodeIt, gi, bind, Except.bind]
    exact h.read _ hlt
  have v0 : ∀ a b : Int, vget [a, b] 0 = .ok a := fun _ _ => rfl
  have v1 : ∀ a b : Int, vget [a, b] 1 = .ok b := fun _ _ => rfl
  have c0 := corner 0 0 0 _ _ rfl (by omega) (by omega) h3 h4
  have c1 := corner 1 1 0 _ _ rfl (by omega) (by omega) h3 h4
  have c2 := corner 2 1 1 _ _ rfl (by omega) (by omega) h3 h4
  have c3 := corner 3 0 1 _ _ rfl (by omega) (by omega) h3 h4
  rw [Nat.add_zero, Nat.add_zero] at c0
  rw [Nat.add_zero] at c1 c3
  unfold Src.quadCoord
  rw [h.cellIt]
  exact bind_eq e (bind_eq (v0 _ _) (bind_eq (v1 _ _) (bind_eq c0 (bind_eq c1 (bind_eq c2 (bind_eq c3 rfl))))))

/-! ### The table -/

/-- The entries of a destination segment. -/
def entries (t : Weights F) (k : Nat) : List (Nat × (Fin 4 → F)) :=
  match t with
  | [] => []
  | (k', l) :: t => if k' = k then l else entries t k

/-- Tables that occur: increasing keys and no empty entry. -/
structure TableOk (t : Weights F) : Prop where
  sorted : t.Pairwise fun a b => a.1 < b.1
  nonempty : ∀ e ∈ t, e.2 ≠ []

theorem tableOk_nil : TableOk ([] : Weights F) := ⟨List.Pairwise.nil, by simp⟩

theorem entries_of_lt {t : Weights F} {k : Nat} (h : ∀ e ∈ t, k < e.1) : entries t k = [] := by
  induction t with
  | nil => rfl
  | cons a t ih =>
    have := h a (List.mem_cons_self ..)
    obtain ⟨k', l⟩ := a
    dsimp only at this
    unfold entries
    rw [if_neg (by omega)]
    exact ih fun e he => h e (List.mem_cons_of_mem _ he)

theorem mem_push {t : Weights F} {k : Nat} {e : Nat × (Fin 4 → F)} {a} (h : a ∈ Weights.push t k e) :
    (a.1 = k ∨ ∃ b ∈ t, b.1 = a.1) ∧ ((∃ b ∈ t, b = a) ∨ (a.1 = k ∧ ∃ l, a.2 = l ++ [e] ∧ (l = [] ∨ (k, l) ∈ t))) := by
  induction t with
  | nil =>
    simp only [Weights.push, List.mem_singleton] at h
    subst h
    exact ⟨.inl rfl, .inr ⟨rfl, [], rfl, .inl rfl⟩⟩
  | cons c t ih =>
    obtain ⟨k', l⟩ := c
    simp only [Weights.push] at h
    split_ifs at h with h1 h2
    · rcases List.mem_cons.mp h with rfl | h
      · exact ⟨.inl rfl, .inr ⟨rfl, [], rfl, .inl rfl⟩⟩
      · exact ⟨.inr ⟨a, h, rfl⟩, .inl ⟨a, h, rfl⟩⟩
    · rcases List.mem_cons.mp h with rfl | h
      · exact ⟨.inr ⟨_, List.mem_cons_self .., rfl⟩, .inl ⟨_, List.mem_cons_self .., rfl⟩⟩
      · obtain ⟨i1, i2⟩ := ih h
        refine ⟨?_, ?_⟩
        · rcases i1 with i1 | ⟨b, hb, e⟩
          · exact .inl i1
          · exact .inr ⟨b, List.mem_cons_of_mem _ hb, e⟩
        · rcases i2 with ⟨b, hb, e⟩ | ⟨e1, l', e2, e3⟩
          · exact .inl ⟨b, List.mem_cons_of_mem _ hb, e⟩
          · refine .inr ⟨e1, l', e2, ?_⟩
            rcases e3 with e3 | e3
            · exact .inl e3
            · exact .inr (List.mem_cons_of_mem _ e3)
    · have hk : k' = k := by omega
      subst hk
      rcases List.mem_cons.mp h with rfl | h
      · exact ⟨.inl rfl, .inr ⟨rfl, l, rfl, .inr (List.mem_cons_self ..)⟩⟩
      · exact ⟨.inr ⟨a, List.mem_cons_of_mem _ h, rfl⟩, .inl ⟨a, List.mem_cons_of_mem _ h, rfl⟩⟩

theorem push_ok {t : Weights F} (h : TableOk t) (k : Nat) (e : Nat × (Fin 4 → F)) : TableOk (Weights.push t k e) := by
  constructor
  · have hs := h.sorted
    clear h
    induction t with
    | nil => simp [Weights.push]
    | cons c t ih =>
      obtain ⟨k', l⟩ := c
      rw [List.pairwise_cons] at hs
      simp only [Weights.push]
      split_ifs with h1 h2
      · rw [List.pairwise_cons]
        refine ⟨?_, List.pairwise_cons.mpr hs⟩
        intro a ha
        rcases List.mem_cons.mp ha with rfl | ha
        · exact h1
        · exact h1.trans (hs.1 a ha)
      · rw [List.pairwise_cons]
        refine ⟨?_, ih hs.2⟩
        intro a ha
        rcases (mem_push ha).1 with h | ⟨b, hb, h⟩
        · dsimp only; omega
        · rw [← h]; exact hs.1 b hb
      · rw [List.pairwise_cons]
        exact ⟨fun a ha => hs.1 a ha, hs.2⟩
  · intro a ha
    rcases (mem_push ha).2 with ⟨b, hb, rfl⟩ | ⟨_, l, hl, _⟩
    · exact h.nonempty b hb
    · rw [hl]; simp

theorem entries_push {t : Weights F} (h : t.Pairwise fun a b => a.1 < b.1) (k : Nat) (e : Nat × (Fin 4 → F)) (j : Nat) :
    entries (Weights.push t k e) j = if k = j then entries t j ++ [e] else entries t j := by
  induction t with
  | nil =>
    simp only [Weights.push, entries]
    split_ifs <;> rfl
  | cons c t ih =>
    obtain ⟨k', l⟩ := c
    rw [List.pairwise_cons] at h
    simp only [Weights.push]
    split_ifs with h1 h2 h3 h4 h5
    · subst h2
      simp only [entries, if_true]
      rw [if_neg (by omega), entries_of_lt (fun e he => h1.trans (h.1 e he))]; rfl
    · simp only [entries]
      rw [if_neg h2]
    · subst h4
      simp only [entries]
      rw [if_neg (by omega), if_neg (by omega), ih h.2, if_pos rfl]
    · simp only [entries]
      rw [ih h.2, if_neg h4]
    · subst h5
      have : k' = k := by omega
      simp only [entries]
      rw [if_pos this, if_pos this]
    · simp only [entries]
      rw [if_neg (by omega), if_neg (by omega)]

theorem entries_mem {t : Weights F} (h : t.Pairwise fun a b => a.1 < b.1) {a} (ha : a ∈ t) : entries t a.1 = a.2 := by
  induction t with
  | nil => cases ha
  | cons c t ih =>
    rw [List.pairwise_cons] at h
    obtain ⟨k', l⟩ := c
    unfold entries
    rcases List.mem_cons.mp ha with rfl | ha
    · rw [if_pos rfl]
    · have := h.1 a ha
      dsimp only at this
      rw [if_neg (by omega)]
      exact ih h.2 ha

theorem mem_of_entries {t : Weights F} {k : Nat} (h : entries t k ≠ []) : (k, entries t k) ∈ t := by
  induction t with
  | nil => exact absurd rfl h
  | cons c t ih =>
    obtain ⟨k', l⟩ := c
    unfold entries at h ⊢
    split_ifs at h ⊢ with h1
    · subst h1; exact List.mem_cons_self ..
    · exact List.mem_cons_of_mem _ (ih h)

/-! ### `apply` -/

/-- What one source cell adds, in the order of the code: cell `k` of a grid of `n0` times `n1` nodes. -/
def addCell (n0 n1 : Nat) (x y : List F) (acc : F) (p : Nat × (Fin 4 → F)) : F :=
  let i := p.1 / (n1 - 1) % (n0 - 1)
  let j := p.1 % (n1 - 1)
  acc + p.2 0 * x.getD (i * n1 + j) 0 + p.2 1 * x.getD (i * n1 + (j + 1)) 0 + p.2 2 * y.getD (i * (n1 - 1) + j) 0 +
    p.2 3 * y.getD ((i + 1) * (n1 - 1) + j) 0

/-- Data of the right sizes. -/
structure DataOk (n0 n1 : Nat) (x y : List F) : Prop where
  x : (n0 - 1) * n1 ≤ x.length
  y : n0 * (n1 - 1) ≤ y.length

theorem cell_lt {a b i j : Nat} (hi : i < a) (hj : j < b) : i * b + j < a * b := by
  have : (i + 1) * b ≤ a * b := Nat.mul_le_mul_right _ hi
  have e : (i + 1) * b = i * b + b := by ring
  omega

theorem sides_ok {n0 n1 : Nat} {p : Nat → Pt F} {s : Src F} (h : SrcOk n0 n1 p s) (h0 : 2 ≤ n0) (h1 : 2 ≤ n1) {x y : List F}
    (hd : DataOk n0 n1 x y) {d : List F} {k : Nat} {v : F} (hv : d[k]? = some v) {i j : Nat} (bi : i < n0 - 1)
    (bj : j < n1 - 1) (w : Fin 4 → F) :
    forN 4 d (sideStep s x y (i : Int) (j : Int) k w) =
      .ok (d.set k (v + w 0 * x.getD (i * n1 + j) 0 + w 1 * x.getD (i * n1 + (j + 1)) 0 + w 2 * y.getD (i * (n1 - 1) + j) 0 +
        w 3 * y.getD ((i + 1) * (n1 - 1) + j) 0)) := by
  have hfits : n0 * n1 ≤ 2147483647 := h.fits.trans (by decide)
  have b0 : n0 ≤ 2147483647 := (Nat.le_mul_of_pos_right _ h.pos1).trans hfits
  have b1 : n1 ≤ 2147483647 := (Nat.le_mul_of_pos_left _ h.pos0).trans hfits
  have f2 : (n0 - 1) * n1 ≤ n0 * n1 := Nat.mul_le_mul_right _ (by omega)
  have f3 : n0 * (n1 - 1) ≤ n0 * n1 := Nat.mul_le_mul_left _ (by omega)
  have hk : k < d.length := by
    by_contra hh
    rw [List.getElem?_eq_none (by omega)] at hv
    cases hv
  have ia : ∀ u v : Nat, u ≤ 2147483646 → v ≤ 1 → iadd (u : Int) (v : Int) = .ok ((u + v : Nat) : Int) := by
    intro u v hu hv
    unfold iadd; exact_mod_cast chk_nat (by omega)
  have step : ∀ (side : Nat) (d : List F) (v : F), side < 4 → d[k]? = some v → k < d.length →
      sideStep s x y (i : Int) (j : Int) k w side d = .ok (d.set k (v + w (node side) *
        (match side with
          | 0 => x.getD (i * n1 + j) 0
          | 1 => x.getD (i * n1 + (j + 1)) 0
          | 2 => y.getD (i * (n1 - 1) + j) 0
          | _ => y.getD ((i + 1) * (n1 - 1) + j) 0))) := by
    intro side d v hs hv hk
    have gv : vget d k = .ok v := vget_eq_ok.mpr hv
    have rx : ∀ u w : Nat, u < n0 - 1 → w < n1 → vgetI x ((u * n1 + w : Nat) : Int) = .ok (x.getD (u * n1 + w) 0) := by
      intro u w hu hw
      have := cell_lt hu hw
      have := hd.x
      unfold vgetI
      rw [if_pos (by omega), Int.toNat_natCast]
      exact vget_eq_ok.mpr (Conserve.getD_of_lt (by omega))
    have ry : ∀ u w : Nat, u < n0 → w < n1 - 1 → vgetI y ((u * (n1 - 1) + w : Nat) : Int) = .ok (y.getD (u * (n1 - 1) + w) 0) := by
      intro u w hu hw
      have := cell_lt hu hw
      have := hd.y
      unfold vgetI
      rw [if_pos (by omega), Int.toNat_natCast]
      exact vget_eq_ok.mpr (Conserve.getD_of_lt (by omega))
    have g0 : ∀ u w : Nat, u < n0 - 1 → w < n1 → s.edgeIt0.getIndex [(u : Int), (w : Int)] = .ok ((u * n1 + w : Nat) : Int) :=
      fun u w hu hw => by rw [h.edgeIt0]; exact getIndex2 (by omega) hu hw
    have g1 : ∀ u w : Nat, u < n0 → w < n1 - 1 → s.edgeIt1.getIndex [(u : Int), (w : Int)] = .ok ((u * (n1 - 1) + w : Nat) : Int) :=
      fun u w hu hw => by rw [h.edgeIt1]; exact getIndex2 (by omega) hu hw
    have i0 : iadd (i : Int) 0 = .ok (i : Int) := ia i 0 (by omega) (by omega)
    have i1 : iadd (i : Int) 1 = .ok ((i + 1 : Nat) : Int) := ia i 1 (by omega) (by omega)
    have j0 : iadd (j : Int) 0 = .ok (j : Int) := ia j 0 (by omega) (by omega)
    have j1 : iadd (j : Int) 1 = .ok ((j + 1 : Nat) : Int) := ia j 1 (by omega) (by omega)
    match side, hs with
    | 0, _ => exact bind_eq i0 (bind_eq j0 (bind_eq (g0 i j bi (by omega)) (bind_eq gv (bind_eq (rx i j bi (by omega)) (vset_ok hk)))))
    | 1, _ =>
      exact bind_eq i0 (bind_eq j1 (bind_eq (g0 i (j + 1) bi (by omega)) (bind_eq gv (bind_eq (rx i (j + 1) bi (by omega)) (vset_ok hk)))))
    | 2, _ =>
      exact bind_eq i0 (bind_eq j0 (bind_eq (g1 i j (by omega) bj) (bind_eq gv (bind_eq (ry i j (by omega) bj) (vset_ok hk)))))
    | 3, _ =>
      exact bind_eq i1 (bind_eq j0 (bind_eq (g1 (i + 1) j (by omega) bj) (bind_eq gv (bind_eq (ry (i + 1) j (by omega) bj) (vset_ok hk)))))
  have gs : ∀ (v : F), (d.set k v)[k]? = some v := fun v => List.getElem?_set_self hk
  have s0 := step 0 d v (by omega) hv hk
  generalize e0 : v + w (node 0) * x.getD (i * n1 + j) 0 = v0 at s0
  have s1 := step 1 _ _ (by omega) (gs v0) (by simpa using hk)
  generalize e1 : v0 + w (node 1) * x.getD (i * n1 + (j + 1)) 0 = v1 at s1
  rw [List.set_set] at s1
  have s2 := step 2 _ _ (by omega) (gs v1) (by simpa using hk)
  generalize e2 : v1 + w (node 2) * y.getD (i * (n1 - 1) + j) 0 = v2 at s2
  rw [List.set_set] at s2
  have s3 := step 3 _ _ (by omega) (gs v2) (by simpa using hk)
  generalize e3 : v2 + w (node 3) * y.getD ((i + 1) * (n1 - 1) + j) 0 = v3 at s3
  rw [List.set_set] at s3
  rw [forN4 s0 s1 s2 s3, ← e3, ← e2, ← e1, ← e0]
  rfl

/-- The value written for a list of entries. -/
def flowSum (n0 n1 : Nat) (x y : List F) (l : List (Nat × (Fin 4 → F))) : F := l.foldl (addCell n0 n1 x y) 0

theorem inner_ok {n0 n1 : Nat} {p : Nat → Pt F} {s : Src F} (h : SrcOk n0 n1 p s) (h0 : 2 ≤ n0) (h1 : 2 ≤ n1) {x y : List F}
    (hd : DataOk n0 n1 x y) (k : Nat) : ∀ (l : List (Nat × (Fin 4 → F))) (d : List F) (v : F), d[k]? = some v →
    (∀ e ∈ l, e.1 ≤ 2147483647) →
    l.foldlM (m := Cxx) (fun d p => do
      let inds ← s.cellIt.getElement (p.1 : Int)
      let i0 ← vget inds 0
      let i1 ← vget inds 1
      forN 4 d (sideStep s x y i0 i1 k p.2)) d = .ok (d.set k (l.foldl (addCell n0 n1 x y) v))
  | [], d, v, hv, _ => by
    obtain ⟨hk, e⟩ := List.getElem?_eq_some_iff.mp hv
    simp [List.foldlM, pure, Except.pure, ← e]
  | c :: l, d, v, hv, hl => by
    have hk : k < d.length := (List.getElem?_eq_some_iff.mp hv).1
    have hfits : n0 * n1 ≤ 2147483647 := h.fits.trans (by decide)
    have b0 : n0 ≤ 2147483647 := (Nat.le_mul_of_pos_right _ h.pos1).trans hfits
    have b1 : n1 ≤ 2147483647 := (Nat.le_mul_of_pos_left _ h.pos0).trans hfits
    have e := getElement2 (a := n0 - 1) (b := n1 - 1) (i := c.1) (by omega) (by omega) (by omega) (by omega)
      (hl c (List.mem_cons_self ..))
    have st : (do
        let inds ← s.cellIt.getElement (c.1 : Int)
        let i0 ← vget inds 0
        let i1 ← vget inds 1
        forN 4 d (sideStep s x y i0 i1 k c.2)) = (.ok (d.set k (addCell n0 n1 x y v c)) : Cxx (List F)) := by
      simp only [h.cellIt, e, vget, List.getElem?_cons_zero, List.getElem?_cons_succ, bind, Except.bind]
      exact sides_ok h h0 h1 hd hv (Nat.mod_lt _ (by omega)) (Nat.mod_lt _ (by omega)) c.2
    rw [List.foldlM_cons, st]
    have := inner_ok h h0 h1 hd k l (d.set k (addCell n0 n1 x y v c)) (addCell n0 n1 x y v c) (List.getElem?_set_self hk)
      (fun e he => hl e (List.mem_cons_of_mem _ he))
    simp only [bind, Except.bind, pure, Except.pure] at this ⊢
    rw [this, List.set_set]
    rfl

theorem apply_ok {n0 n1 : Nat} {p : Nat → Pt F} {s : Src F} (h : SrcOk n0 n1 p s) (h0 : 2 ≤ n0) (h1 : 2 ≤ n1) {x y : List F}
    (hd : DataOk n0 n1 x y) (o : Flow F) (ho : o.src = some s) (ht : TableOk o.weights) (d : List F)
    (hk : ∀ e ∈ o.weights, e.1 < d.length ∧ ∀ c ∈ e.2, c.1 ≤ 2147483647) :
    ∃ d', o.apply x y d = .ok d' ∧ d'.length = d.length ∧
      ∀ k, d'[k]? = if entries o.weights k = [] then d[k]? else some (flowSum n0 n1 x y (entries o.weights k)) := by
  unfold Flow.apply
  rw [ho]
  obtain ⟨hs, hn⟩ := ht
  revert hs hn
  revert d
  generalize o.weights = t
  induction t with
  | nil => intro d hk hs hn; exact ⟨d, rfl, rfl, fun k => by simp [entries]⟩
  | cons c t ih =>
    intro d hk hs hn
    obtain ⟨k0, l⟩ := c
    rw [List.pairwise_cons] at hs
    obtain ⟨hk0, hl⟩ := hk (k0, l) (List.mem_cons_self ..)
    dsimp only at hk0 hl
    have e0 : vset d k0 (0 : F) = .ok (d.set k0 0) := vset_ok hk0
    have e1 := inner_ok h h0 h1 hd k0 l (d.set k0 0) 0 (List.getElem?_set_self hk0) hl
    rw [List.set_set] at e1
    obtain ⟨d', e2, l2, p2⟩ := ih (d.set k0 (l.foldl (addCell n0 n1 x y) 0))
      (fun e he => by
        have := hk e (List.mem_cons_of_mem _ he)
        rw [List.length_set]; exact this) hs.2 (fun e he => hn e (List.mem_cons_of_mem _ he))
    refine ⟨d', ?_, by rw [l2, List.length_set], ?_⟩
    · rw [List.foldlM_cons]
      simp only [bind, Except.bind, pure, Except.pure] at e1 e2 ⊢
      rw [e0]
      dsimp only
      rw [e1]
      exact e2
    · intro k
      rw [p2 k]
      have hne := hn (k0, l) (List.mem_cons_self ..)
      dsimp only at hne
      by_cases hkk : k0 = k
      · subst hkk
        have : entries t k0 = [] := entries_of_lt hs.1
        rw [this, if_pos rfl]
        simp only [entries, if_true]
        rw [if_neg hne, List.getElem?_set_self hk0]
        rfl
      · have : entries ((k0, l) :: t) k = entries t k := by
          show (if k0 = k then l else entries t k) = _
          rw [if_neg hkk]
        simp only [this, List.getElem?_set_ne hkk]

end
end Sg.FlowInterp
