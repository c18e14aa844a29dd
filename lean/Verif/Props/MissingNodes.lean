import Verif.Props.NodeInterp
import Verif.Props.MissingValues
import Verif.Spec.IeeeOps
/-
Property C136: missing values (NaN) in the source data of nodal interpolation.
-/
namespace Sg.Props
open Sg.LinearSolve Sg.FindPoint Sg.NodeInterp Sg.Spec Sg.Ieee

/-- The object with weights computed in exact arithmetic, for data that may hold infinities and NaN. -/
def nodeWithWeights {K : Type} [Field K] [LinearOrder K] [FOps K] (o : NodeInterp K) : NodeInterp (Ieee K) :=
  { (NodeInterp.new 0 0 : NodeInterp (Ieee K)) with weights := o.weights.map fun e => (e.1, e.2.map fun p => (p.1, fin p.2)) }

section sums
variable {K : Type} [Field K] [LinearOrder K]

theorem entryVal_nan (src : List (Ieee K)) (l : List (Int × Ieee K)) (p : Int × Ieee K) (hp : p ∈ l)
    (h : p.2 * src.getD p.1.toNat 0 = nan) : entryVal src l = nan := by
  have hn : ∀ l : List (Int × Ieee K), l.foldl (fun acc e => acc + e.2 * src.getD e.1.toNat 0) nan = nan := by
    intro l
    induction l with
    | nil => rfl
    | cons p l ih => rw [List.foldl_cons, nan_add, ih]
  obtain ⟨l1, l2, rfl⟩ := List.append_of_mem hp
  unfold entryVal
  rw [List.foldl_append, List.foldl_cons, h, add_nan, hn]

theorem entryVal_fin (src : List (Ieee K)) (v : List K) (l : List (Int × K))
    (h : ∀ p ∈ l, src.getD p.1.toNat 0 = fin (v.getD p.1.toNat 0)) :
    entryVal src (l.map fun p => (p.1, fin p.2)) = fin (entryVal v l) := by
  have gen : ∀ (l : List (Int × K)) (a : K), (∀ p ∈ l, src.getD p.1.toNat 0 = fin (v.getD p.1.toNat 0)) →
      (l.map fun p => (p.1, fin p.2)).foldl (fun acc e => acc + e.2 * src.getD e.1.toNat 0) (fin a) =
        fin (l.foldl (fun acc e => acc + e.2 * v.getD e.1.toNat 0) a) := by
    intro l
    induction l with
    | nil => intro a _; rfl
    | cons p l ih =>
      intro a h
      rw [List.map_cons, List.foldl_cons, List.foldl_cons, h p (List.mem_cons_self ..), fin_mul, fin_add]
      exact ih _ fun p hp => h p (List.mem_cons_of_mem _ hp)
  exact gen l 0 h

end sums

section affine
set_option linter.unusedSectionVars false
variable {K : Type} [Field K] [LinearOrder K] [IsStrictOrderedRing K] [FloorRing K] [FOps K] [FOpsLaws K]

/-- The table of exact weights applied to data with infinities and NaN. -/
theorem withWeights_ok (o : NodeInterp K) (src dst : List (Ieee K)) (h : GoodTable o.weights src.length dst.length) :
    ∃ d, (nodeWithWeights o).apply src dst = .ok d ∧ d.length = dst.length ∧
      (∀ k iw, (k, iw) ∈ o.weights → d[k]? = some (entryVal src (iw.map fun p => (p.1, fin p.2)))) ∧
      ∀ k, (∀ iw, (k, iw) ∉ o.weights) → d[k]? = dst[k]? := by
  obtain ⟨d, h1, hlen, h2, h3⟩ := NodeInterp.apply_ok (nodeWithWeights o) src dst (by
      have := h.keys
      unfold SortedKeys at this ⊢
      show (o.weights.map _).Pairwise _
      rw [List.pairwise_map]
      exact this) (by
      intro e he
      obtain ⟨e', he', rfl⟩ := List.mem_map.1 he
      exact h.dst e' he') (by
      intro e he q hq
      obtain ⟨e', he', rfl⟩ := List.mem_map.1 he
      obtain ⟨q', hq', rfl⟩ := List.mem_map.1 hq
      exact_mod_cast h.src e' he' q' hq')
  refine ⟨d, h1, hlen, fun k iw hm => h2 (k, iw.map fun p => (p.1, fin p.2)) (List.mem_map.2 ⟨_, hm, rfl⟩), fun k hk => h3 k fun e he hek => ?_⟩
  obtain ⟨e', he', rfl⟩ := List.mem_map.1 he
  exact hk e'.2 (by rw [← hek]; exact he')

/-- **C136** Any two grids, weights in exact arithmetic: the value of a destination node is NaN as soon as one of the source nodes listed for it
has the value NaN, be its weight zero, or an infinite value with weight zero; if all of them are finite it is the one of exact
arithmetic, whatever the other source values are; and a node without weights keeps its value. -/
theorem C136_listed (g : Gels K) (hg : KeepsSizes g) (nitermax : Int) (tolpos : K) (dims : Fin 2 → Nat)
    (hd : ∀ i, 2 ≤ dims i ∧ dims i ≤ 2 ^ 30) (per : Fin 2 → Int) (coords : Fin 2 → Nat → K) (dd : Fin 2 → Nat) (dc : Fin 2 → Nat → K) :
    ∃ o, (((new nitermax tolpos).setSrcGrid dims per coords).setDstGrid dd dc).computeWeights g = .ok o ∧
      ∀ src dst : List (Ieee K), src.length = dims 0 * dims 1 → dst.length = dd 0 * dd 1 →
      ∃ d, (nodeWithWeights o).apply src dst = .ok d ∧ d.length = dst.length ∧
        (∀ k iw, (k, iw) ∈ o.weights →
          ((∃ e ∈ iw, src[e.1.toNat]? = some nan) → d[k]? = some nan) ∧
          ((∃ e ∈ iw, e.2 = 0 ∧ ∃ s, src[e.1.toNat]? = some (inf s)) → d[k]? = some nan) ∧
          ∀ v : Nat → K, (∀ e ∈ iw, src[e.1.toNat]? = some (fin (v e.1.toNat))) →
            d[k]? = some (fin ((iw.map fun e => e.2 * v e.1.toNat).sum))) ∧
        ∀ k, (∀ iw, (k, iw) ∉ o.weights) → d[k]? = dst[k]? := by
  obtain ⟨o, ho, ht, -⟩ := C38_table g hg nitermax tolpos dims hd per coords dd dc
  refine ⟨o, ho, fun src dst hsrc hdst => ?_⟩
  obtain ⟨d, h1, hlen, h2, h3⟩ := withWeights_ok o src dst (by rw [hsrc, hdst]; exact ht)
  refine ⟨d, h1, hlen, fun k iw hm => ⟨?_, ?_, ?_⟩, h3⟩
  · rintro ⟨e, he, hn⟩
    rw [h2 k iw hm, entryVal_nan src _ (e.1, fin e.2) (List.mem_map.2 ⟨e, he, rfl⟩)]
    simp only [List.getD_eq_getElem?_getD, hn, Option.getD_some]
    exact mul_nan _
  · rintro ⟨e, he, h0, s, hn⟩
    rw [h2 k iw hm, entryVal_nan src _ (e.1, fin e.2) (List.mem_map.2 ⟨e, he, rfl⟩)]
    simp only [List.getD_eq_getElem?_getD, hn, Option.getD_some, h0]
    exact if_pos rfl
  · intro v hv
    rw [h2 k iw hm]
    congr 1
    unfold entryVal
    have gen : ∀ (l : List (Int × K)) (a : K), (∀ e ∈ l, src[e.1.toNat]? = some (fin (v e.1.toNat))) →
        (l.map fun p => (p.1, fin p.2)).foldl (fun acc e => acc + e.2 * src.getD e.1.toNat 0) (fin a) =
          fin (a + (l.map fun e => e.2 * v e.1.toNat).sum) := by
      intro l
      induction l with
      | nil => intro a _; simp
      | cons e l ih =>
        intro a h
        rw [List.map_cons, List.foldl_cons, List.getD_eq_getElem?_getD, h e (List.mem_cons_self ..), Option.getD_some, fin_mul, fin_add,
          ih _ fun e he => h e (List.mem_cons_of_mem _ he), List.map_cons, List.sum_cons, add_assoc]
    have := gen iw 0 hv
    rw [zero_add] at this
    exact this

/-- The fraction `u` of a side puts a position in the cell `i` of `n` nodes: the upper end counts for the last cell only. -/
def InCell (n i : Nat) (u : K) : Prop := i + 1 < n ∧ 0 ≤ u ∧ (u < 1 ∨ u = 1 ∧ i + 2 = n)

theorem cellLo_inCell (dims : Fin 2 → Nat) (d : Fin 2 → K) (a : Fin 2) (i : Nat) (u : K) (h : InCell (dims a) i u)
    (hd : d a = i + u) : cellLo dims d a = i := by
  obtain ⟨h1, h2, h3⟩ := h
  unfold cellLo
  rw [hd]
  have hf : ⌊(i : K) + u⌋ = i + ⌊u⌋ := by
    have := Int.floor_natCast_add (R := K) i u
    exact this
  rcases h3 with h3 | ⟨h3, h4⟩
  · rw [hf, Int.floor_eq_zero_iff.2 ⟨h2, h3⟩]
    simp only [add_zero, Int.toNat_natCast]
    omega
  · rw [hf, h3, Int.floor_one]
    omega

/-- The entry of a position in the cell `(i, j)`: the four corners of the cell, with the products of the fractions. -/
theorem getSrc_cell (dims : Fin 2 → Nat) (hgd : GoodDims dims) (i j : Nat) (u v : K) (hi : InCell (dims 0) i u) (hj : InCell (dims 1) j v)
    (hin : InGrid dims ![(i : K) + u, (j : K) + v]) :
    getSrcIndicesAndWeights dims ![(i : K) + u, (j : K) + v] = .ok
      [(((i * dims 1 + j : Nat) : Int), (1 - u) * (1 - v)), (((i * dims 1 + (j + 1) : Nat) : Int), (1 - u) * v),
       ((((i + 1) * dims 1 + j : Nat) : Int), u * (1 - v)), ((((i + 1) * dims 1 + (j + 1) : Nat) : Int), u * v)] := by
  have hrm : ∀ m : Fin 2 → Nat, rowMajor dims m = m 0 * dims 1 + m 1 := by
    intro m
    rw [rowMajor_succ, rowMajor_succ]
    simp [rowMajor]
  rw [getSrc_ok dims hgd _ hin]
  have hpow : List.range (2 ^ 2) = [0, 1, 2, 3] := rfl
  rw [hpow]
  simp only [List.map_cons, List.map_nil, Fin.prod_univ_two, hrm, cornerNode]
  have bits : bit 2 0 0 = 0 ∧ bit 2 0 1 = 0 ∧ bit 2 1 0 = 0 ∧ bit 2 1 1 = 1 ∧ bit 2 2 0 = 1 ∧ bit 2 2 1 = 0 ∧
      bit 2 3 0 = 1 ∧ bit 2 3 1 = 1 := by decide
  obtain ⟨p1, p2, p3, p4, p5, p6, p7, p8⟩ := bits
  rw [p1, p2, p3, p4, p5, p6, p7, p8]
  simp only [sideWeight, if_true, one_ne_zero, if_false, cellLo_inCell dims ![(i : K) + u, (j : K) + v] 0 i u hi rfl,
    cellLo_inCell dims ![(i : K) + u, (j : K) + v] 1 j v hj rfl, Matrix.cons_val_zero, Matrix.cons_val_one, add_zero]
  have a1 : (i : K) + 1 - (i + u) = 1 - u := by ring
  have a2 : (j : K) + 1 - (j + v) = 1 - v := by ring
  have a3 : (i : K) + u - i = u := by ring
  have a4 : (j : K) + v - j = v := by ring
  rw [a1, a2, a3, a4]

/-- **C136** Affine source grid, weights in exact arithmetic, any data with infinities and NaN.  A destination node in the source cell
`(i, j)`, at the fractions `u` and `v` of its sides, gets NaN as soon as one of the four corners of the cell has the value NaN, be its
weight zero, or an infinite value with weight zero; and the bilinear interpolant if all four have finite values, whatever the other
values are. -/
theorem C136_cell (g : Gels K) (hg : GelsContract g) (nitermax : Int) (hnit : 2 ≤ nitermax) (tolpos : K)
    (htol : 0 < tolpos) (dims : Fin 2 → Nat) (hd : ∀ i, 2 ≤ dims i ∧ dims i ≤ 2 ^ 30) (per : Fin 2 → Int)
    (coords : Fin 2 → Nat → K) (c : Fin 2 → K) (A : Matrix (Fin 2) (Fin 2) K) (hA : A.det ≠ 0)
    (hgrid : AffineGrid dims c A coords) (dd : Fin 2 → Nat) (dc : Fin 2 → Nat → K) :
    ∃ o, (((new nitermax tolpos).setSrcGrid dims per coords).setDstGrid dd dc).computeWeights g = .ok o ∧
      ∀ src dst : List (Ieee K), src.length = dims 0 * dims 1 → dst.length = dd 0 * dd 1 →
      ∃ d, (nodeWithWeights o).apply src dst = .ok d ∧ d.length = dst.length ∧
        ∀ k < dd 0 * dd 1, ∀ (i j : Nat) (u v : K), InCell (dims 0) i u → InCell (dims 1) j v →
        (∀ a, dc a k = c a + (A a 0 * (i + u) + A a 1 * (j + v))) →
        ((∃ p ≤ 1, ∃ q ≤ 1, src[(i + p) * dims 1 + (j + q)]? = some nan) → d[k]? = some nan) ∧
        ((∃ p ≤ 1, ∃ q ≤ 1, ((if p = 0 then 1 - u else u) * (if q = 0 then 1 - v else v) = 0) ∧
          ∃ s, src[(i + p) * dims 1 + (j + q)]? = some (inf s)) → d[k]? = some nan) ∧
        ∀ x : Nat → Nat → K, (∀ p ≤ 1, ∀ q ≤ 1, src[(i + p) * dims 1 + (j + q)]? = some (fin (x p q))) →
          d[k]? = some (fin ((1 - u) * (1 - v) * x 0 0 + (1 - u) * v * x 0 1 + u * (1 - v) * x 1 0 + u * v * x 1 1)) := by
  have hgd : GoodDims dims := fun i => ⟨(hd i).1, (hd i).2.trans (by norm_num)⟩
  obtain ⟨o, ho, ht, hent⟩ := affine_entry g hg nitermax hnit tolpos htol dims hd per coords c A hA hgrid dd dc
  refine ⟨o, ho, fun src dst hsrc hdst => ?_⟩
  obtain ⟨d, h1, hlen, h2, -⟩ := NodeInterp.apply_ok (nodeWithWeights o) src dst (by
      have := ht.keys
      unfold SortedKeys at this ⊢
      show (o.weights.map _).Pairwise _
      rw [List.pairwise_map]
      exact this) (by
      intro e he
      obtain ⟨e', he', rfl⟩ := List.mem_map.1 he
      rw [hdst]
      exact ht.dst e' he') (by
      intro e he q hq
      obtain ⟨e', he', rfl⟩ := List.mem_map.1 he
      obtain ⟨q', hq', rfl⟩ := List.mem_map.1 hq
      rw [hsrc]
      exact_mod_cast ht.src e' he' q' hq')
  refine ⟨d, h1, hlen, fun k hk i j u v hi hj hdc => ?_⟩
  have hu1 : u ≤ 1 := hi.2.2.elim le_of_lt fun h => h.1.le
  have hv1 : v ≤ 1 := hj.2.2.elim le_of_lt fun h => h.1.le
  obtain ⟨hin, -⟩ := interp_cell dims hgd (List.replicate (dims 0 * dims 1) (0 : K)) (List.length_replicate ..) i j u v hi.1 hj.1
    ⟨hi.2.1, hu1⟩ ⟨hj.2.1, hv1⟩
  obtain ⟨iw, hmem, he⟩ := hent k hk _ hin (fun a => by rw [hdc, Fin.sum_univ_two]; rfl)
  rw [getSrc_cell dims hgd i j u v hi hj hin, Except.ok.injEq] at he
  have hv := h2 (k, iw.map fun p => (p.1, fin p.2)) (List.mem_map.2 ⟨_, hmem, rfl⟩)
  dsimp only at hv
  have hall : ∀ p ≤ 1, ∀ q ≤ 1, ((((i + p) * dims 1 + (j + q) : Nat) : Int), (if p = 0 then 1 - u else u) * (if q = 0 then 1 - v else v)) ∈ iw := by
    intro p hp q hq
    rw [← he]
    have hp' : p = 0 ∨ p = 1 := by omega
    have hq' : q = 0 ∨ q = 1 := by omega
    rcases hp' with rfl | rfl <;> rcases hq' with rfl | rfl <;> simp
  refine ⟨?_, ?_, ?_⟩
  · rintro ⟨p, hp, q, hq, hn⟩
    rw [hv, entryVal_nan src _ _ (List.mem_map.2 ⟨_, hall p hp q hq, rfl⟩)]
    simp only [Int.toNat_natCast, List.getD_eq_getElem?_getD, hn, Option.getD_some]
    exact mul_nan _
  · rintro ⟨p, hp, q, hq, h0, s, hn⟩
    rw [hv, entryVal_nan src _ _ (List.mem_map.2 ⟨_, hall p hp q hq, rfl⟩)]
    simp only [Int.toNat_natCast, List.getD_eq_getElem?_getD, hn, Option.getD_some, h0]
    exact if_pos rfl
  · intro x hx
    have hget : ∀ p ≤ 1, ∀ q ≤ 1, src.getD ((i + p) * dims 1 + (j + q)) 0 = fin (x p q) := fun p hp q hq => by
      rw [List.getD_eq_getElem?_getD, hx p hp q hq, Option.getD_some]
    have e00 := hget 0 (by norm_num) 0 (by norm_num)
    have e01 := hget 0 (by norm_num) 1 (by norm_num)
    have e10 := hget 1 (by norm_num) 0 (by norm_num)
    have e11 := hget 1 (by norm_num) 1 (by norm_num)
    simp only [add_zero] at e00 e01 e10
    rw [hv, ← he]
    unfold entryVal
    simp only [List.map_cons, List.map_nil, List.foldl_cons, List.foldl_nil, Int.toNat_natCast, e00, e01, e10, e11]
    rw [fin_zero, fin_mul, fin_mul, fin_mul, fin_mul, fin_add, fin_add, fin_add, fin_add, zero_add]

/-- **C136** Interpolation from an affine grid to itself: a node gets NaN if one of the four corners of the cell that begins at it (of the last cell,
at the end of an axis) has the value NaN, and is copied if all four are finite. -/
theorem C136_self (g : Gels K) (hg : GelsContract g) (nitermax : Int) (hnit : 2 ≤ nitermax) (tolpos : K)
    (htol : 0 < tolpos) (dims : Fin 2 → Nat) (hd : ∀ i, 2 ≤ dims i ∧ dims i ≤ 2 ^ 30) (per : Fin 2 → Int)
    (coords : Fin 2 → Nat → K) (c : Fin 2 → K) (A : Matrix (Fin 2) (Fin 2) K) (hA : A.det ≠ 0)
    (hgrid : AffineGrid dims c A coords) :
    ∃ o, (((new nitermax tolpos).setSrcGrid dims per coords).setDstGrid dims coords).computeWeights g = .ok o ∧
      ∀ src dst : List (Ieee K), src.length = dims 0 * dims 1 → dst.length = dims 0 * dims 1 →
      ∃ d, (nodeWithWeights o).apply src dst = .ok d ∧ d.length = dst.length ∧
        ∀ i < dims 0, ∀ j < dims 1,
        ((∃ p ≤ 1, ∃ q ≤ 1, src[(min i (dims 0 - 2) + p) * dims 1 + (min j (dims 1 - 2) + q)]? = some nan) →
          d[i * dims 1 + j]? = some nan) ∧
        ((∀ p ≤ 1, ∀ q ≤ 1, ∃ x, src[(min i (dims 0 - 2) + p) * dims 1 + (min j (dims 1 - 2) + q)]? = some (fin x)) →
          d[i * dims 1 + j]? = src[i * dims 1 + j]?) := by
  obtain ⟨o, ho, h⟩ := C136_cell g hg nitermax hnit tolpos htol dims hd per coords c A hA hgrid dims coords
  refine ⟨o, ho, fun src dst hs hd' => ?_⟩
  obtain ⟨d, h1, h2, h3⟩ := h src dst hs hd'
  refine ⟨d, h1, h2, fun i hi j hj => ?_⟩
  have hlast : ∀ (n x : Nat), 2 ≤ n → x < n → ∃ w : K, InCell n (min x (n - 2)) w ∧ ((min x (n - 2) : Nat) : K) + w = x ∧
      ((w = 0 ∧ min x (n - 2) = x) ∨ (w = 1 ∧ min x (n - 2) + 1 = x)) := by
    intro n x hn hx
    by_cases h : x + 1 < n
    · have e : min x (n - 2) = x := by omega
      rw [e]
      exact ⟨0, ⟨h, le_refl _, Or.inl zero_lt_one⟩, by simp, Or.inl ⟨rfl, rfl⟩⟩
    · have e : min x (n - 2) + 1 = x := by omega
      refine ⟨1, ⟨by omega, zero_le_one, Or.inr ⟨rfl, by omega⟩⟩, ?_, Or.inr ⟨rfl, e⟩⟩
      have : ((min x (n - 2) + 1 : Nat) : K) = x := by rw [e]
      rw [← this, Nat.cast_add, Nat.cast_one]
  obtain ⟨u, p1, p2, p3⟩ := hlast (dims 0) i (hd 0).1 hi
  obtain ⟨v, q1, q2, q3⟩ := hlast (dims 1) j (hd 1).1 hj
  have hk : i * dims 1 + j < dims 0 * dims 1 := by
    have : (i + 1) * dims 1 ≤ dims 0 * dims 1 := Nat.mul_le_mul_right _ hi
    rw [Nat.add_mul] at this
    omega
  have hrm : rowMajor dims ![i, j] = i * dims 1 + j := by
    rw [rowMajor_succ, rowMajor_succ]
    simp [rowMajor]
  have hco : ∀ a, coords a (i * dims 1 + j) = c a + (A a 0 * i + A a 1 * j) := by
    intro a
    have := hgrid ![i, j] (by intro b; fin_cases b <;> assumption) a
    rw [hrm, Fin.sum_univ_two] at this
    exact this
  obtain ⟨k1, -, k3⟩ := h3 _ hk _ _ u v p1 q1 (fun a => by rw [hco, p2, q2])
  refine ⟨k1, fun hf => ?_⟩
  have hx : ∀ p ≤ 1, ∀ q ≤ 1, src[(min i (dims 0 - 2) + p) * dims 1 + (min j (dims 1 - 2) + q)]? = some (fin
      ((fun p q => match src[(min i (dims 0 - 2) + p) * dims 1 + (min j (dims 1 - 2) + q)]? with | some (fin x) => x | _ => (0 : K)) p q)) := by
    intro p hp q hq
    obtain ⟨x, hx⟩ := hf p hp q hq
    simp only [hx]
  rw [k3 _ hx]
  rcases p3 with ⟨rfl, e1⟩ | ⟨rfl, e1⟩ <;> rcases q3 with ⟨rfl, e2⟩ | ⟨rfl, e2⟩
  · have := hx 0 (by norm_num) 0 (by norm_num)
    simp only [add_zero, e1, e2] at this
    rw [this]
    simp only [add_zero, sub_zero, mul_zero, zero_mul, one_mul, e1, e2]
  · have := hx 0 (by norm_num) 1 (by norm_num)
    simp only [add_zero, e1, e2] at this
    rw [this]
    simp only [add_zero, sub_zero, sub_self, mul_zero, zero_mul, mul_one, one_mul, zero_add, e1, e2]
  · have := hx 1 (by norm_num) 0 (by norm_num)
    simp only [add_zero, e1, e2] at this
    rw [this]
    simp only [add_zero, sub_zero, sub_self, mul_zero, zero_mul, mul_one, one_mul, zero_add, e1, e2]
  · have := hx 1 (by norm_num) 1 (by norm_num)
    simp only [e1, e2] at this
    rw [this]
    simp only [add_zero, sub_self, mul_zero, zero_mul, mul_one, one_mul, zero_add, e1, e2]

end affine

/-- The library `gels2` on finite entries. -/
def ieeeGels2 : Gels (Ieee ℚ) := fun r =>
  let out := gels2 { trans := r.trans, m := r.m, n := r.n, nrhs := r.nrhs, a := r.a.map number, lda := r.lda, b := r.b.map number, ldb := r.ldb, lwork := r.lwork }
  { a := out.a.map fin, b := out.b.map fin, info := out.info }

/-- **C136** is false as a user would expect it: with the whole computation in arithmetic with NaN, a sheared grid of 3 x 3 nodes
interpolated to itself, the value of the node in the middle missing: all nine values are lost although every destination node is a source node. -/
theorem C136_neighbour_refuted : ∃ g : Gels (Ieee ℚ),
    (∀ r : GelsArgs ℚ, g { trans := r.trans, m := r.m, n := r.n, nrhs := r.nrhs, a := r.a.map fin, lda := r.lda, b := r.b.map fin, ldb := r.ldb, lwork := r.lwork } =
      { a := (gels2 r).a.map fin, b := (gels2 r).b.map fin, info := (gels2 r).info }) ∧
    (do let o ← (((new 5 (fin (1 / 1000)) : NodeInterp (Ieee ℚ)).setSrcGrid ![3, 3] ![0, 0] fun i k => fin (sheared i k)).setDstGrid ![3, 3]
            fun i k => fin (sheared i k)).computeWeights g
        o.apply [fin 1, fin 2, fin 3, fin 4, nan, fin 6, fin 7, fin 8, fin 9] (List.replicate 9 (fin 0))) =
      .ok (List.replicate 9 nan) := by
  refine ⟨ieeeGels2, ?_, by decide +kernel⟩
  intro r
  have hu : ∀ l : List ℚ, (l.map fin).map number = l := fun l => by
    rw [List.map_map]
    exact List.map_id'' (fun _ => rfl) l
  unfold ieeeGels2
  simp only [hu]

/-! ### The hypotheses are met -/

/-- C136: the sheared grid to itself, weights exact and data with a missing value in the middle. -/
example : ∃ (o : NodeInterp ℚ) (d : List (Ieee ℚ)),
    (((new 5 (1 / 1000) : NodeInterp ℚ).setSrcGrid ![3, 3] ![0, 0] sheared).setDstGrid ![3, 3] sheared).computeWeights refGels = .ok o ∧
    (nodeWithWeights o).apply [fin 1, fin 2, fin 3, fin 4, nan, fin 6, fin 7, fin 8, fin 9] (List.replicate 9 (fin 0)) = .ok d ∧
    d[1]? = some nan ∧ d[3]? = some nan ∧ d[4]? = some nan := by
  obtain ⟨o, h1, h2⟩ := C136_self refGels refGels_contract 5 (by norm_num) (1 / 1000 : ℚ) (by norm_num) ![3, 3]
    (by intro i; fin_cases i <;> simp) ![0, 0] sheared ![0, 0] !![1, (1 : ℚ); 0, 2] (by simp [Matrix.det_fin_two]) sheared_affine
  obtain ⟨d, h3, -, h4⟩ := h2 [fin 1, fin 2, fin 3, fin 4, nan, fin 6, fin 7, fin 8, fin 9] (List.replicate 9 (fin 0)) rfl (by simp)
  refine ⟨o, d, h1, h3, ?_, ?_, ?_⟩
  · exact (h4 0 (by simp) 1 (by simp)).1 ⟨1, by norm_num, 0, by norm_num, rfl⟩
  · exact (h4 1 (by simp) 0 (by simp)).1 ⟨0, by norm_num, 1, by norm_num, rfl⟩
  · exact (h4 1 (by simp) 1 (by simp)).1 ⟨0, by norm_num, 0, by norm_num, rfl⟩

end Sg.Props
