import Verif.Spec.RoundedRegular
import Verif.Proof.FlowRounded
import Verif.Props.SearchRounding
import Verif.Props.NodeInterp
/-
Searches on grids with straight equidistant lines in rounded arithmetic.
-/
namespace Sg.Regular
open Sg Sg.LinearSolve Sg.QuadIntersect Sg.FindPoint Sg.Spec Sg.Props Sg.NodeInterp

variable {rnd : ℝ → ℝ} {g : Gels (Fl rnd)} {N : Nat} {u β Δ κ ρ L M Y δ : ℝ} {A : Fin 2 → Fin 2 → ℝ} {c : Fin 2 → ℝ}
  {dims : Fin 2 → Nat} {coords : Fin 2 → Nat → Fl rnd}

theorem rowMajor_pair (dims m : Fin 2 → Nat) : rowMajor dims m = m 0 * dims 1 + m 1 := by
  have h0 : (Finset.univ.filter fun k : Fin 2 => 0 < k) = {1} := by decide
  have h1 : (Finset.univ.filter fun k : Fin 2 => 1 < k) = ∅ := by decide
  simp [rowMajor, h0, h1]

theorem weighted_diff (iw : List (Int × ℝ)) (a b : Int × ℝ → ℝ) (h0 : ∀ e ∈ iw, 0 ≤ e.2) (h : ∀ e ∈ iw, |a e - b e| ≤ κ) :
    |(iw.map fun e : Int × ℝ => e.2 * a e).sum - (iw.map fun e : Int × ℝ => e.2 * b e).sum| ≤ κ * (iw.map Prod.snd).sum := by
  induction iw with
  | nil => simp
  | cons e l ih =>
    have ih := ih (fun e he => h0 e (List.mem_cons_of_mem _ he)) (fun e he => h e (List.mem_cons_of_mem _ he))
    have h1 := h0 e List.mem_cons_self
    have h2 := mul_le_mul_of_nonneg_left (h e List.mem_cons_self) h1
    rw [← abs_of_nonneg h1, ← abs_mul, abs_of_nonneg h1] at h2
    simp only [List.map_cons, List.sum_cons]
    rw [abs_le] at *
    constructor <;> nlinarith [ih.1, ih.2, h2.1, h2.2]

/-- The computed place of a position. -/
theorem place_near (hr : Rounds rnd u 0) (hN : KeepsInts rnd N) (hd : GoodDims dims) (hfit : ∀ i, dims i ≤ N) (hgr : RegularGrid dims coords c A κ M)
    (i : Fin 2) (d : Fin 2 → Fl rnd) (hin : InGrid dims (vals d)) :
    ∃ v, interp dims d ((List.range (∏ k, dims k)).map (coords i)) = .ok v ∧ |v.val - image c A (vals d) i| ≤ spotError u κ M := by
  have hprod : ∏ i, dims i = dims 0 * dims 1 := Fin.prod_univ_two _
  set field := (List.range (∏ k, dims k)).map (coords i) with hfield
  have hlen : field.length = ∏ k, dims k := by simp [hfield]
  have hget : ∀ m < dims 0 * dims 1, field[m]? = some (coords i m) := by
    intro m hm
    rw [hfield, List.getElem?_map, List.getElem?_range (by rw [hprod]; exact hm)]
    rfl
  obtain ⟨v, w, hv, hw, he⟩ := C107_interp hr hN dims hd hfit d hin field hlen M (by
    intro m v _ hv
    have hm : rowMajor dims m < dims 0 * dims 1 := by
      by_contra hcon
      rw [List.getElem?_eq_none (by rw [hlen, hprod]; omega)] at hv
      cases hv
    rw [hget _ hm, Option.some.injEq] at hv
    rw [← hv]
    exact hgr.size i _ hm)
  refine ⟨v, hv, ?_⟩
  obtain ⟨iw, h2, -, h7, h8⟩ := C28_partition_of_unity dims hd (vals d) hin
  set field' : List ℝ := (List.range (∏ k, dims k)).map fun m => image c A ![((m / dims 1 : Nat) : ℝ), ((m % dims 1 : Nat) : ℝ)] i with hfield'
  have hlen' : field'.length = ∏ k, dims k := by simp [hfield']
  have hd1 : 0 < dims 1 := by have := (hd 1).1; omega
  have haff : interp dims (vals d) field' = .ok (c i + ∑ j, A i j * vals d j) := by
    refine interp_affine dims hd (vals d) hin (c i) (A i) field' hlen' fun m hm => ?_
    have hlt := rowMajor_lt dims m hm
    rw [hfield', List.getElem?_map, List.getElem?_range hlt, Option.map_some, rowMajor_pair]
    have e1 : (m 0 * dims 1 + m 1) / dims 1 = m 0 := by
      rw [Nat.add_comm, Nat.add_mul_div_right _ _ hd1, Nat.div_eq_of_lt (hm 1), Nat.zero_add]
    have e2 : (m 0 * dims 1 + m 1) % dims 1 = m 1 := by
      rw [Nat.add_comm, Nat.add_mul_mod_self_right, Nat.mod_eq_of_lt (hm 1)]
    rw [e1, e2, Fin.sum_univ_two]
    simp [image, add_assoc]
  obtain ⟨a1, a2⟩ := interp_entryVal dims hd (vals d) hin (field.map Fl.val) (by rw [List.length_map]; exact hlen) iw h2
  obtain ⟨b1, -⟩ := interp_entryVal dims hd (vals d) hin field' hlen' iw h2
  rw [hw, Except.ok.injEq, entryVal_eq] at a1
  rw [haff, Except.ok.injEq, entryVal_eq, Fin.sum_univ_two, ← add_assoc] at b1
  have hdiff := weighted_diff (κ := κ) iw (fun e => (field.map Fl.val).getD e.1.toNat 0) (fun e => field'.getD e.1.toNat 0) (fun e he => (h7 e he).1) (by
    intro e he
    obtain ⟨p0, p1⟩ := a2 e he
    rw [List.length_map, hlen, hprod] at p1
    have hm : e.1.toNat < dims 0 * dims 1 := by omega
    set m := e.1.toNat
    have hq : m % dims 1 < dims 1 := Nat.mod_lt _ hd1
    have hp : m / dims 1 < dims 0 := Nat.div_lt_of_lt_mul (by rw [Nat.mul_comm]; exact hm)
    have := hgr.near (m / dims 1) (m % dims 1) hp hq i
    rw [show m / dims 1 * dims 1 + m % dims 1 = m by rw [Nat.mul_comm]; exact Nat.div_add_mod _ _] at this
    rw [List.getD_eq_getElem?_getD, List.getD_eq_getElem?_getD, List.getElem?_map, hget m hm, hfield', List.getElem?_map,
      List.getElem?_range (by rw [hprod]; exact hm)]
    exact this)
  rw [h8, mul_one] at hdiff
  have e1 : |w - image c A (vals d) i| ≤ κ := by
    rw [show image c A (vals d) i = c i + A i 0 * vals d 0 + A i 1 * vals d 1 from rfl, b1, a1]
    exact hdiff
  have e2 : |v.val - w| ≤ ((1 + u) ^ 11 - 1) * M := he
  have := abs_sub_le v.val w (image c A (vals d) i)
  unfold spotError
  linarith

theorem image_diff (x y : Fin 2 → ℝ) (i : Fin 2) : image c A x i - image c A y i = A i 0 * (x 0 - y 0) + A i 1 * (x 1 - y 1) := by
  unfold image; ring

theorem image_diff_le (hL : 0 ≤ L) (hA : ∀ i j, |A i j| ≤ L) {x y : Fin 2 → ℝ} {e : ℝ} (h : ∀ k, |x k - y k| ≤ e) (i : Fin 2) :
    |image c A x i - image c A y i| ≤ 2 * L * e := by
  rw [image_diff]
  have t1 : |A i 0 * (x 0 - y 0)| ≤ L * e := by rw [abs_mul]; exact mul_le_mul (hA i 0) (h 0) (abs_nonneg _) hL
  have t2 : |A i 1 * (x 1 - y 1)| ≤ L * e := by rw [abs_mul]; exact mul_le_mul (hA i 1) (h 1) (abs_nonneg _) hL
  have := abs_add_le (A i 0 * (x 0 - y 0)) (A i 1 * (x 1 - y 1))
  linarith

theorem half_val (H : FineEnough rnd g N u β Δ κ L M Y A) (h2 : 2 ≤ N) : (1 / (1 + 1) : Fl rnd).val = 1 / 2 := by
  show rnd (1 / rnd (1 + 1)) = 1 / 2
  have h2 : rnd (1 + 1) = 2 := by have := H.ints.int 2 h2; norm_num at this ⊢; exact this
  rw [h2, H.half]

/-- The two positions of a difference quotient are at least a quarter apart. -/
theorem width (H : FineEnough rnd g N u β Δ κ L M Y A) (hd : GoodDims dims) (hfit : ∀ i, dims i ≤ N) (hY : ∀ i, (dims i : ℝ) ≤ Y)
    (d : Fin 2 → Fl rnd) (hin : InGrid dims (vals d)) (j : Fin 2) :
    1 / 4 ≤ (indsHi dims d j j).val - (indsLo d j j).val := by
  have hu := H.rounds.rel
  have hn := H.nodes
  have hdj := (hd j).1
  obtain ⟨h0, h1⟩ := hin j
  have hYj := hY j
  have hhalf := half_val H (hdj.trans (hfit j))
  have hc : (((dims j - 1 : Nat) : Nat) : Fl rnd).val = (dims j : ℝ) - 1 := by
    rw [cast_fl H.ints (show dims j - 1 ≤ N by have := hfit j; omega)]
    push_cast [Nat.cast_sub (show 1 ≤ dims j by omega)]; ring
  have hd2 : (2 : ℝ) ≤ dims j := by exact_mod_cast hdj
  set x := (d j).val with hx
  have hxv : vals d j = x := rfl
  rw [hxv] at h0 h1
  have hhi : x + 3 / 8 ≤ (d j + 1 / (1 + 1)).val := by
    rw [Fl.add_val, hhalf]
    have := rnd_near H.rounds (x + 1 / 2)
    rw [abs_of_nonneg (show 0 ≤ x + 1 / 2 by linarith), abs_le] at this
    have h3 : u * (x + 1 / 2) ≤ u * Y := mul_le_mul_of_nonneg_left (by linarith) hu
    linarith [this.1]
  have hlo : (d j - 1 / (1 + 1)).val ≤ x - 3 / 8 := by
    rw [Fl.sub_val, hhalf]
    have := rnd_near H.rounds (x - 1 / 2)
    have h4 : |x - 1 / 2| ≤ Y := by rw [abs_le]; constructor <;> linarith
    have h3 : u * |x - 1 / 2| ≤ u * Y := mul_le_mul_of_nonneg_left h4 hu
    rw [abs_le] at this
    linarith [this.2]
  have a1 : (indsHi dims d j j).val = (d j + 1 / (1 + 1)).val ∨ (indsHi dims d j j).val = (dims j : ℝ) - 1 := by
    unfold indsHi
    rw [if_pos rfl]
    dsimp only
    split_ifs
    · exact .inl rfl
    · exact .inr hc
  have a2 : (indsLo d j j).val = (d j - 1 / (1 + 1)).val ∨ (indsLo d j j).val = 0 := by
    unfold indsLo
    rw [if_pos rfl]
    dsimp only
    split_ifs
    · exact .inl rfl
    · exact .inr rfl
  rcases a1 with a1 | a1 <;> rcases a2 with a2 | a2 <;> rw [a1, a2] <;> linarith

theorem hi_other (d : Fin 2 → Fl rnd) (j k : Fin 2) (h : k ≠ j) : indsHi dims d j k = d k := by unfold indsHi; rw [if_neg h]
theorem lo_other (d : Fin 2 → Fl rnd) (j k : Fin 2) (h : k ≠ j) : indsLo d j k = d k := by unfold indsLo; rw [if_neg h]

/-- A rounded difference quotient. -/
theorem quotient_near (hr : Rounds rnd u 0) (hu : u ≤ 1 / 10) {X w B ε : ℝ} (hw : 1 / 4 ≤ w) (hB : |B| ≤ L) (hX : |X - B * w| ≤ 2 * ε) :
    |rnd (rnd X / rnd w) - B| ≤ 5 * u * L + 11 * ε := by
  have hu0 := hr.rel
  have hε : 0 ≤ ε := by have := abs_nonneg (X - B * w); linarith
  have hL : 0 ≤ L := (abs_nonneg _).trans hB
  have hwp : 0 < w := by linarith
  have n1 := rnd_near hr X
  have n2 := rnd_near hr w
  rw [abs_of_pos hwp] at n2
  have hBw : |B * w| ≤ L * w := by rw [abs_mul, abs_of_pos hwp]; exact mul_le_mul_of_nonneg_right hB hwp.le
  have hXs : |X| ≤ L * w + 2 * ε := by
    have := abs_add_le (B * w) (X - B * w); rw [add_sub_cancel] at this; linarith
  have hWlo : 9 / 10 * w ≤ rnd w := by
    have := (abs_le.mp n2).1
    nlinarith
  have hWp : 0 < rnd w := by linarith
  set Q := rnd X / rnd w with hQ
  have hnum : |rnd X - B * rnd w| ≤ 2 * u * (L * w) + 11 / 5 * ε := by
    have e : rnd X - B * rnd w = (rnd X - X) + (X - B * w) + B * (w - rnd w) := by ring
    rw [e]
    have t3 : |B * (w - rnd w)| ≤ L * (u * w) := by
      rw [abs_mul, abs_sub_comm]; exact mul_le_mul hB n2 (abs_nonneg _) hL
    have t1 : |rnd X - X| ≤ u * (L * w + 2 * ε) := n1.trans (mul_le_mul_of_nonneg_left hXs hu0)
    have := abs_add_three (rnd X - X) (X - B * w) (B * (w - rnd w))
    nlinarith
  have hQB : |Q - B| ≤ 5 / 2 * u * L + 99 / 10 * ε := by
    have e : Q - B = (rnd X - B * rnd w) / rnd w := by rw [hQ]; field_simp
    rw [e, abs_div, abs_of_pos hWp, div_le_iff₀ hWp]
    have hb : 0 ≤ 5 / 2 * u * L + 99 / 10 * ε := by positivity
    have hmul := mul_le_mul_of_nonneg_left hWlo hb
    have : 0 ≤ u * L * w := by positivity
    nlinarith
  have n3 := rnd_near hr Q
  have hQs : |Q| ≤ L + (5 / 2 * u * L + 99 / 10 * ε) := by
    have := abs_add_le B (Q - B); rw [add_sub_cancel] at this; linarith
  have t := abs_sub_le (rnd Q) Q B
  have h5 := n3.trans (mul_le_mul_of_nonneg_left hQs hu0)
  have hul : 0 ≤ u * L := mul_nonneg hu0 hL
  have h6 : u * (u * L) ≤ 1 / 10 * (u * L) := mul_le_mul_of_nonneg_right hu hul
  have h7 : u * ε ≤ 1 / 10 * ε := mul_le_mul_of_nonneg_right hu hε
  nlinarith

/-- The matrix and the right-hand side. -/
theorem jac_near (H : FineEnough rnd g N u β Δ κ L M Y A) (hd : GoodDims dims) (hfit : ∀ i, dims i ≤ N) (hY : ∀ i, (dims i : ℝ) ≤ Y)
    (hgr : RegularGrid dims coords c A κ M) (s : Finder (Fl rnd) 2) (hsd : s.dims = dims)
    (hsc : ∀ i, s.coords i = (List.range (∏ k, dims k)).map (coords i)) (hin : InGrid dims (vals s.dIndices)) (x : Fin 2 → ℝ) (hx : ∀ k, |x k - vals s.dIndices k| ≤ δ)
    (ht : ∀ i, |(s.targetPoint i).val - image c A x i| ≤ ρ) :
    ∃ jac rhs, s.computeJacobianAndRHS = .ok (jac, rhs) ∧ (∀ i j, |(jac i j).val - A i j| ≤ slantError u κ L M) ∧
      ∀ i, |(rhs i).val - (image c A x i - image c A (vals s.dIndices) i)| ≤ shiftError u κ ρ L M δ := by
  have hu := H.rounds.rel
  have key := fun i d (h : InGrid dims (vals d)) => place_near H.rounds H.ints hd hfit hgr i d h
  choose wm hm1 hm2 using fun i => key i s.dIndices hin
  choose wh hh1 hh2 using fun i j => key i _ (indsHi_fl H.ints dims hd hfit s.dIndices hin j)
  choose wl hl1 hl2 using fun i j => key i _ (indsLo_fl H.ints dims hd hfit s.dIndices hin j)
  refine ⟨fun i j => (wh i j - wl i j) / (indsHi dims s.dIndices j j - indsLo s.dIndices j j), fun i => s.targetPoint i - wm i, ?_, ?_, ?_⟩
  · unfold Finder.computeJacobianAndRHS
    rw [forAxes_ok _ (fun i => s.targetPoint i - wm i) (fun i => by rw [hsd, hsc, hm1]; rfl)]
    simp only [bind, Except.bind]
    rw [forAxes_ok (fun i => forAxes fun j => _) (fun i j => (wh i j - wl i j) / (indsHi dims s.dIndices j j - indsLo s.dIndices j j))]
    · rfl
    · intro i
      refine forAxes_ok _ _ fun j => ?_
      rw [hsd, hsc, hh1, hl1]
      rfl
  · intro i j
    rw [Fl.div_val, Fl.sub_val, Fl.sub_val]
    refine quotient_near H.rounds H.unit (width H hd hfit hY s.dIndices hin j) (H.slopes i j) ?_
    have a1 := hh2 i j
    have a2 := hl2 i j
    have e : image c A (vals (indsHi dims s.dIndices j)) i - image c A (vals (indsLo s.dIndices j)) i =
        A i j * ((indsHi dims s.dIndices j j).val - (indsLo s.dIndices j j).val) := by
      rw [image_diff]
      unfold vals
      match j with
      | 0 => rw [hi_other _ 0 1 (by decide), lo_other _ 0 1 (by decide)]; ring
      | 1 => rw [hi_other _ 1 0 (by decide), lo_other _ 1 0 (by decide)]; ring
    rw [← e]
    rw [abs_le] at *
    constructor <;> linarith [a1.1, a1.2, a2.1, a2.2]
  · intro i
    rw [Fl.sub_val]
    have a1 := hm2 i
    have a2 := ht i
    have a3 : |image c A x i - image c A (vals s.dIndices) i| ≤ 2 * L * δ := image_diff_le H.scale.le H.slopes hx i
    set D := (s.targetPoint i).val - (wm i).val with hD
    set E := image c A x i - image c A (vals s.dIndices) i with hE
    have d1 : |D - E| ≤ ρ + spotError u κ M := by
      rw [hD, hE]
      rw [abs_le] at *
      constructor <;> linarith [a1.1, a1.2, a2.1, a2.2]
    have d2 : |D| ≤ 2 * L * δ + ρ + spotError u κ M := by
      have := abs_add_le E (D - E)
      rw [add_sub_cancel] at this
      linarith
    have b1 := rnd_near H.rounds D
    have b2 := mul_le_mul_of_nonneg_left d2 hu
    have t := abs_sub_le (rnd D) D E
    unfold shiftError
    linarith

/-- `two_solve` for solutions of any size. -/
theorem two_solve_scaled {A0 A1 A2 A3 F0 F1 F2 F3 b0 b1 r0 r1 x0 x1 y0 y1 f r : ℝ} (hL : 0 < L) (hΔ : 0 < Δ) (hY : 0 < Y) (a0 : |A0| ≤ L) (a1 : |A1| ≤ L)
    (a2 : |A2| ≤ L) (a3 : |A3| ≤ L) (hdet : Δ * L ^ 2 ≤ |A0 * A3 - A1 * A2|) (f0 : |F0| ≤ f) (f1 : |F1| ≤ f) (f2 : |F2| ≤ f) (f3 : |F3| ≤ f)
    (hr0 : |r0| ≤ r) (hr1 : |r1| ≤ r) (e0 : A0 * y0 + A1 * y1 = b0) (e1 : A2 * y0 + A3 * y1 = b1)
    (g0 : (A0 + F0) * x0 + (A1 + F1) * x1 = b0 + r0) (g1 : (A2 + F2) * x0 + (A3 + F3) * x1 = b1 + r1) (hy0 : |y0| ≤ Y) (hy1 : |y1| ≤ Y)
    (hf : 8 * f ≤ Δ * L) : |x0 - y0| ≤ 4 * (r + 2 * Y * f) / (Δ * L) ∧ |x1 - y1| ≤ 4 * (r + 2 * Y * f) / (Δ * L) := by
  have hY2 : 0 < 2 * Y := by linarith
  have dv : ∀ {a b : ℝ}, |a| ≤ b → |a / (2 * Y)| ≤ b / (2 * Y) := by
    intro a b h
    rw [abs_div, abs_of_pos hY2]
    exact div_le_div_of_nonneg_right h hY2.le
  have half : ∀ {y : ℝ}, |y| ≤ Y → |y / (2 * Y)| ≤ 1 / 2 := by
    intro y h
    refine (dv h).trans (le_of_eq ?_)
    field_simp
  obtain ⟨k0, k1⟩ := QuadFlows.two_solve (F0 := F0) (F1 := F1) (F2 := F2) (F3 := F3) (b0 := b0 / (2 * Y)) (b1 := b1 / (2 * Y)) (r0 := r0 / (2 * Y)) (r1 := r1 / (2 * Y))
    (x0 := x0 / (2 * Y)) (x1 := x1 / (2 * Y)) (y0 := y0 / (2 * Y)) (y1 := y1 / (2 * Y)) hL hΔ a0 a1 a2 a3 hdet f0 f1 f2 f3 (dv hr0) (dv hr1)
    (by rw [← e0]; ring) (by rw [← e1]; ring) (by rw [← add_div, ← g0]; ring) (by rw [← add_div, ← g1]; ring) (half hy0) (half hy1) hf
  have up : ∀ {x y : ℝ}, |x / (2 * Y) - y / (2 * Y)| ≤ 4 * (r / (2 * Y) + f) / (Δ * L) → |x - y| ≤ 4 * (r + 2 * Y * f) / (Δ * L) := by
    intro x y h
    rw [← sub_div, abs_div, abs_of_pos hY2, div_le_iff₀ hY2] at h
    refine h.trans (le_of_eq ?_)
    field_simp
  exact ⟨up k0, up k1⟩

/-- The same for solutions of size 0. -/
theorem two_solve_any {A0 A1 A2 A3 F0 F1 F2 F3 b0 b1 r0 r1 x0 x1 y0 y1 f r : ℝ} (hL : 0 < L) (hΔ : 0 < Δ) (hY : 0 ≤ Y) (a0 : |A0| ≤ L) (a1 : |A1| ≤ L)
    (a2 : |A2| ≤ L) (a3 : |A3| ≤ L) (hdet : Δ * L ^ 2 ≤ |A0 * A3 - A1 * A2|) (f0 : |F0| ≤ f) (f1 : |F1| ≤ f) (f2 : |F2| ≤ f) (f3 : |F3| ≤ f)
    (hr0 : |r0| ≤ r) (hr1 : |r1| ≤ r) (e0 : A0 * y0 + A1 * y1 = b0) (e1 : A2 * y0 + A3 * y1 = b1)
    (g0 : (A0 + F0) * x0 + (A1 + F1) * x1 = b0 + r0) (g1 : (A2 + F2) * x0 + (A3 + F3) * x1 = b1 + r1) (hy0 : |y0| ≤ Y) (hy1 : |y1| ≤ Y)
    (hf : 8 * f ≤ Δ * L) : |x0 - y0| ≤ 4 * (r + 2 * Y * f) / (Δ * L) ∧ |x1 - y1| ≤ 4 * (r + 2 * Y * f) / (Δ * L) := by
  have hΔL : 0 < Δ * L := mul_pos hΔ hL
  have key : ∀ η : ℝ, 0 < η → |x0 - y0| ≤ 4 * (r + 2 * Y * f) / (Δ * L) + η ∧ |x1 - y1| ≤ 4 * (r + 2 * Y * f) / (Δ * L) + η := by
    intro η hη
    obtain ⟨k0, k1⟩ := two_solve_scaled (Y := Y + η) hL hΔ (by linarith) a0 a1 a2 a3 hdet f0 f1 f2 f3 hr0 hr1 e0 e1 g0 g1 (by linarith) (by linarith) hf
    have hb : 4 * (r + 2 * (Y + η) * f) / (Δ * L) ≤ 4 * (r + 2 * Y * f) / (Δ * L) + η := by
      rw [div_add' _ _ _ hΔL.ne', div_le_div_iff_of_pos_right hΔL]
      nlinarith
    exact ⟨k0.trans hb, k1.trans hb⟩
  exact ⟨le_of_forall_pos_le_add fun η hη => (key η hη).1, le_of_forall_pos_le_add fun η hη => (key η hη).2⟩

/-- What the solver answers. -/
theorem solution_near (H : FineEnough rnd g N u β Δ κ L M Y A) (hδ : 0 ≤ δ) (jac : Fin 2 → Fin 2 → Fl rnd)
    (rhs : Fin 2 → Fl rnd) (b : Fin 2 → ℝ) (hj : ∀ i j, |(jac i j).val - A i j| ≤ slantError u κ L M)
    (hr : ∀ i, |(rhs i).val - b i| ≤ shiftError u κ ρ L M δ) (y : Fin 2 → ℝ) (hy : ∀ k, |y k| ≤ δ)
    (hyb : ∀ i, A i 0 * y 0 + A i 1 * y 1 = b i) (k : Fin 2) :
    |(solution g jac rhs k).val - y k| ≤ stepError u β Δ κ ρ L M δ := by
  have hs := H.slopes
  have hdet := H.area
  have hse : 0 ≤ slantError u κ L M := (abs_nonneg _).trans (hj 0 0)
  have hm : slantError u κ L M ≤ systemError u β κ L M := by
    unfold systemError
    have := mul_nonneg H.pos (add_nonneg H.scale.le hse)
    linarith
  set r := args2 (flatten2 jac) (flatten1 rhs) with hrd
  have ha : r.a = [jac 0 0, jac 0 1, jac 1 0, jac 1 1] := rfl
  have hb : r.b = [rhs 0, rhs 1] := rfl
  have hS : ∀ x ∈ r.a, |x.val| ≤ L + slantError u κ L M := by
    have : ∀ i j, |(jac i j).val| ≤ L + slantError u κ L M := by
      intro i j
      have h1 := abs_add_le (A i j) ((jac i j).val - A i j)
      rw [add_sub_cancel] at h1
      linarith [hj i j, hs i j]
    rw [ha]
    intro x hx
    simp only [List.mem_cons, List.not_mem_nil, or_false] at hx
    rcases hx with rfl | rfl | rfl | rfl <;> exact this _ _
  have k00 : coef r 0 0 = (jac 0 0).val := rfl
  have k10 : coef r 1 0 = (jac 0 1).val := rfl
  have k01 : coef r 0 1 = (jac 1 0).val := rfl
  have k11 : coef r 1 1 = (jac 1 1).val := rfl
  have near : ∀ {E : ℝ} (i j), |E| ≤ β * (L + slantError u κ L M) → |(jac i j).val + E - A i j| ≤ systemError u β κ L M := by
    intro E i j hE
    have h1 := abs_add_le ((jac i j).val - A i j) E
    have h2 := hj i j
    have h3 : (jac i j).val + E - A i j = (jac i j).val - A i j + E := by ring
    rw [h3]
    unfold systemError
    linarith
  have hinfo : (g r).info = 0 := by
    by_contra hne
    obtain ⟨-, E, hE, hsing⟩ := H.stable.reported r (two_args2 _ _) hne
    have hE' := hE _ hS
    rw [k00, k10, k01, k11] at hsing
    exact QuadFlows.det_ne H.scale H.shape (hs 0 0) (hs 0 1) (hs 1 0) (hs 1 1) hdet (near 0 0 (hE' 0 0)) (near 0 1 (hE' 1 0)) (near 1 0 (hE' 0 1))
      (near 1 1 (hE' 1 1)) H.regular hsing
  have hnz : ∃ x ∈ r.a, x.val ≠ 0 := by
    by_contra hcon
    push Not at hcon
    have z : ∀ i j, (jac i j).val = 0 := by
      intro i j
      refine hcon _ ?_
      rw [ha]
      fin_cases i <;> fin_cases j <;> simp
    have n : ∀ i j, |0 - A i j| ≤ systemError u β κ L M := by
      intro i j
      rw [← z i j]
      exact (hj i j).trans hm
    exact QuadFlows.det_ne H.scale H.shape (hs 0 0) (hs 0 1) (hs 1 0) (hs 1 1) hdet (n 0 0) (n 0 1) (n 1 0) (n 1 1) H.regular (by ring)
  obtain ⟨E, hE, hsol⟩ := H.stable.solves r (two_args2 _ _) hnz hinfo
  have hE' := hE _ hS
  have s0 := hsol 0 (by norm_num)
  have s1 := hsol 1 (by norm_num)
  rw [k00, k10] at s0
  rw [k01, k11] at s1
  have v0 : entry (g r).b 0 = (solution g jac rhs 0).val := rfl
  have v1 : entry (g r).b 1 = (solution g jac rhs 1).val := rfl
  have w0 : entry r.b 0 = (rhs 0).val := rfl
  have w1 : entry r.b 1 = (rhs 1).val := rfl
  rw [v0, v1, w0] at s0
  rw [v0, v1, w1] at s1
  have key := two_solve_any (F0 := (jac 0 0).val + E 0 0 - A 0 0) (F1 := (jac 0 1).val + E 1 0 - A 0 1)
    (F2 := (jac 1 0).val + E 0 1 - A 1 0) (F3 := (jac 1 1).val + E 1 1 - A 1 1) (b0 := b 0) (b1 := b 1)
    (r0 := (rhs 0).val - b 0) (r1 := (rhs 1).val - b 1) (x0 := (solution g jac rhs 0).val) (x1 := (solution g jac rhs 1).val) (y0 := y 0) (y1 := y 1)
    H.scale H.shape hδ (hs 0 0) (hs 0 1) (hs 1 0) (hs 1 1) hdet (near 0 0 (hE' 0 0)) (near 0 1 (hE' 1 0)) (near 1 0 (hE' 0 1))
      (near 1 1 (hE' 1 1)) (hr 0) (hr 1) (hyb 0) (hyb 1) (by linarith) (by linarith) (hy 0) (hy 1) H.regular
  match k with
  | 0 => exact key.1
  | 1 => exact key.2

theorem clamp_near (hN : KeepsInts rnd N) {n : Nat} (h2 : 2 ≤ n) (hn : n ≤ N) (d : Fl rnd) {x e : ℝ} (h0 : 0 ≤ x) (h1 : x ≤ (n : ℝ) - 1) (hd : |d.val - x| ≤ e) :
    |(truncateIndex (0 : Fl rnd) n d).val - x| ≤ e := by
  have e2 : (((n - 1 : Nat) : Nat) : Fl rnd).val = (n : ℝ) - 1 := by
    rw [cast_fl hN (show n - 1 ≤ N by omega)]
    push_cast [Nat.cast_sub (show 1 ≤ n by omega)]; ring
  unfold truncateIndex
  dsimp only
  rw [if_neg (not_not.mpr rfl)]
  have he : 0 ≤ e := (abs_nonneg _).trans hd
  rw [abs_le] at hd
  by_cases hn : d < 0
  · have hn' : d.val < 0 := hn
    rw [if_pos hn, if_neg (by show ¬ (((n - 1 : Nat) : Nat) : Fl rnd).val < (0 : ℝ); rw [e2]; linarith)]
    show |0 - x| ≤ e
    rw [abs_le]; constructor <;> linarith
  · rw [if_neg hn]
    split_ifs with h2
    · have h2' : (n : ℝ) - 1 < d.val := by have h2'' : (((n - 1 : Nat) : Nat) : Fl rnd).val < d.val := h2; rw [e2] at h2''; exact h2''
      rw [e2, abs_le]; constructor <;> linarith
    · rw [abs_le]; exact hd

/-- The test that the target is in the box of the grid is passed. -/
theorem inside_fl (hN : KeepsInts rnd N) (nitermax : Int) (tolpos : Fl rnd) (per : Fin 2 → Int) (s : Finder (Fl rnd) 2)
    (b : (Fin 2 → Fl rnd) × (Fin 2 → Fl rnd)) (hb : ((Finder.new nitermax tolpos).setGrid dims per coords).bounds = some b)
    (hrep : ∀ i, rnd (s.targetPoint i).val = (s.targetPoint i).val)
    (hbox : ∀ i, ∃ m < ∏ k, dims k, ∃ m' < ∏ k, dims k, (coords i m).val ≤ (s.targetPoint i).val ∧ (s.targetPoint i).val ≤ (coords i m').val) :
    s.inside b = true := by
  have heps : (0 : ℝ) ≤ (FOps.eps100 : Fl rnd).val := hN.nonneg (by positivity)
  simp only [Finder.setGrid, Finder.new, Option.getD, Option.some.injEq] at hb
  unfold Finder.inside
  rw [List.all_eq_true]
  intro i _
  rw [Bool.and_eq_true, decide_eq_true_iff, decide_eq_true_iff]
  obtain ⟨m, hm, m', hm', h1, h2⟩ := hbox i
  obtain ⟨-, m2, -⟩ := foldMin_spec (coords i) (List.range (∏ k, dims k)) FOps.big
  obtain ⟨-, n2, -⟩ := foldMax_spec (coords i) (List.range (∏ k, dims k)) (-FOps.big)
  have hb1 : b.1 i = (List.range (∏ k, dims k)).foldl (fun m j => if m < coords i j then m else coords i j) FOps.big := by rw [← hb]
  have hb2 : b.2 i = (List.range (∏ k, dims k)).foldl (fun m j => if coords i j < m then m else coords i j) (-FOps.big) := by rw [← hb]
  rw [← hb1] at m2
  rw [← hb2] at n2
  have a1 := m2 m (List.mem_range.2 hm)
  have a2 := n2 m' (List.mem_range.2 hm')
  constructor
  · show rnd ((b.1 i).val - (FOps.eps100 : Fl rnd).val) ≤ (s.targetPoint i).val
    rw [← hrep i]
    exact hN.mono (by linarith)
  · show (s.targetPoint i).val ≤ rnd ((b.2 i).val + (FOps.eps100 : Fl rnd).val)
    rw [← hrep i]
    exact hN.mono (by linarith)

/-- One step: the code is 0 or 1, the indices get near those of the target, and the code is 1 if the step ends near enough. -/
theorem step_fl (H : FineEnough rnd g N u β Δ κ L M Y A) (hd : GoodDims dims) (hfit : ∀ i, dims i ≤ N) (hY : ∀ i, (dims i : ℝ) ≤ Y)
    (hgr : RegularGrid dims coords c A κ M) (nitermax : Int) (tolpos : Fl rnd) (s : Finder (Fl rnd) 2)
    (hf : Ready s) (hsame : SameGrid ((Finder.new nitermax tolpos).setGrid dims (fun _ => 0) coords) s) (hin : InGrid dims (vals s.dIndices))
    (hit : (s.iter : Int) + 1 < nitermax) (hhist : s.errorHistory.length ≤ 1)
    (hrep : ∀ i, rnd (s.targetPoint i).val = (s.targetPoint i).val)
    (hbox : ∀ i, ∃ m < ∏ k, dims k, ∃ m' < ∏ k, dims k, (coords i m).val ≤ (s.targetPoint i).val ∧ (s.targetPoint i).val ≤ (coords i m').val)
    (x : Fin 2 → ℝ) (hx : InGrid dims x) (hδ : ∀ k, |x k - vals s.dIndices k| ≤ δ) (ht : ∀ i, |(s.targetPoint i).val - image c A x i| ≤ ρ) :
    ∃ code s', s.next g = .ok (code, s') ∧ (code = 0 ∨ code = 1) ∧
      ((1 + u) ^ 6 * (Real.sqrt 2 * missError u β Δ κ ρ L M Y δ) < tolpos.val → code = 1) ∧
      InGrid dims (vals s'.dIndices) ∧ (∀ k, |(s'.dIndices k).val - x k| ≤ landError u β Δ κ ρ L M Y δ) ∧
      s'.iter = s.iter + 1 ∧ s'.errorHistory.length = s.errorHistory.length + 1 ∧ s'.targetPoint = s.targetPoint ∧ Ready s' ∧
      SameGrid ((Finder.new nitermax tolpos).setGrid dims (fun _ => 0) coords) s' := by
  have hu := H.rounds.rel
  have hk : FindPoint.KeepsSizes g := H.stable.sizes
  have hδ0 : 0 ≤ δ := (abs_nonneg _).trans (hδ 0)
  have hready := hf
  obtain ⟨⟨b, hb⟩, slvr, hsl, hok⟩ := hf
  have hsd : s.dims = dims := hsame.dims
  have hsc : ∀ i, s.coords i = (List.range (∏ k, dims k)).map (coords i) := fun i => by
    rw [hsame.coords]; rfl
  obtain ⟨jac, rhs, hj, hj1, hj2⟩ := jac_near H hd hfit hY hgr s hsd hsc hin x hδ ht
  have hsol := solution_near H hδ0 jac rhs _ hj1 hj2 (fun k => x k - vals s.dIndices k) hδ (fun i => (image_diff x (vals s.dIndices) i).symm)
  have hmoved : ∀ k, |(s.moved g jac rhs k).val - x k| ≤ landError u β Δ κ ρ L M Y δ := by
    intro k
    have hper : s.indexPeriodicity k = 0 := by
      rw [hsame.per]
      simp [Finder.setGrid, Finder.new]
    unfold Finder.moved
    rw [hper, hsd]
    refine clamp_near H.ints (hd k).1 (hfit k) _ (hx k).1 (hx k).2 ?_
    rw [Fl.add_val]
    have h1 := hsol k
    have hdv : (s.dIndices k).val = vals s.dIndices k := rfl
    rw [hdv]
    set y := (solution g jac rhs k).val
    set e := stepError u β Δ κ ρ L M δ with he
    set z := vals s.dIndices k
    have h2 : |z + y - x k| ≤ e := by
      rw [show z + y - x k = y - (x k - z) by ring]; exact h1
    have h3 : |z + y| ≤ Y + e := by
      have := abs_add_le (x k) (z + y - x k)
      rw [add_sub_cancel, abs_of_nonneg (hx k).1] at this
      linarith [(hx k).2, hY k]
    have h4 := (rnd_near H.rounds (z + y)).trans (mul_le_mul_of_nonneg_left h3 hu)
    have h5 := abs_sub_le (rnd (z + y)) (z + y) (x k)
    unfold landError
    rw [← he]
    linarith
  have hin' : InGrid dims (vals (s.moved g jac rhs)) := by
    intro k
    unfold Finder.moved vals
    dsimp only
    rw [hsd]
    exact truncate_fl H.ints _ _ (hd k).1 (hfit k) _
  set s' : Finder (Fl rnd) 2 := { s with
    slvr := some (afterSolve g 2 slvr (flatten2 jac) (flatten1 rhs))
    dIndices := s.moved g jac rhs } with hs'
  have hpos : ∀ k, ∃ w, interp s'.dims s'.dIndices (s'.coords k) = .ok w ∧ |w.val - image c A (vals (s.moved g jac rhs)) k| ≤ spotError u κ M := by
    intro k
    have hdim : s'.dims = dims := hsd
    have hco : s'.coords k = (List.range (∏ k, dims k)).map (coords k) := hsc k
    rw [hdim, hco]
    exact place_near H.rounds H.ints hd hfit hgr k _ hin'
  choose w hw1 hw2 using hpos
  have hgp : s'.getPosition = .ok w := forAxes_ok _ w hw1
  have hD : ∀ k, |(w k).val - (s'.targetPoint k).val| ≤ missError u β Δ κ ρ L M Y δ := by
    intro k
    have e1 := hw2 k
    have e2 := ht k
    have e3 : |image c A (vals (s.moved g jac rhs)) k - image c A x k| ≤ 2 * L * landError u β Δ κ ρ L M Y δ :=
      image_diff_le (c := c) H.scale.le H.slopes hmoved k
    have et : (s'.targetPoint k).val = (s.targetPoint k).val := rfl
    rw [et]
    unfold missError
    rw [abs_le] at *
    constructor <;> linarith [e1.1, e1.2, e2.1, e2.2, e3.1, e3.2]
  have hge : s'.getError = .ok (flDist w s'.targetPoint) := by
    unfold Finder.getError
    rw [hgp]
    rfl
  have htp : s'.tolpos = tolpos := hsame.tolpos
  set err := flDist w s'.targetPoint with herr
  have hsmall : (1 + u) ^ 6 * (Real.sqrt 2 * missError u β Δ κ ρ L M Y δ) < tolpos.val → err < s'.tolpos := by
    intro h4
    rw [htp]
    show err.val < tolpos.val
    have h1 := (flDist_bounds H.rounds (by linarith [H.unit]) w s'.targetPoint).2
    have hm0 : 0 ≤ missError u β Δ κ ρ L M Y δ := (abs_nonneg _).trans (hD 0)
    have h2 := gap_le (vals w) (vals s'.targetPoint) _ hm0 hD
    have h3 := mul_le_mul_of_nonneg_left h2 (show 0 ≤ (1 + u) ^ (2 + 4) by positivity)
    norm_num at h1 h3 h4 ⊢
    linarith
  have hnit' : s'.nitermax = nitermax := hsame.nitermax
  have hfin : s'.finishStep err = if err < s'.tolpos then (1, { s' with iter := s'.iter + 1, errorHistory := s'.errorHistory ++ [err] })
      else (0, { s' with iter := s'.iter + 1, errorHistory := s'.errorHistory ++ [err], oldError := err }) := by
    have hlen : s'.errorHistory.length ≤ 1 := hhist
    have hiter : (s'.iter : Int) = s.iter := rfl
    unfold Finder.finishStep
    dsimp only
    rw [if_neg (by rintro ⟨-, h3, -⟩; rw [List.length_append, List.length_singleton] at h3; omega), if_neg (by rw [hnit']; omega)]
  have hnext : s.next g = .ok (s'.finishStep err) := by
    rw [next_eq g hk (by norm_num) s b hb slvr hsl hok]
    have hins : s.inside b = true := by
      refine inside_fl H.ints nitermax tolpos (fun _ => 0) s b ?_ hrep hbox
      rw [← hsame.bounds]; exact hb
    rw [hins, if_neg (by simp), hj]
    show (s'.getError >>= fun e => Except.ok (s'.finishStep e)) = _
    rw [hge]
    rfl
  have hr' := ready_next g hk (by norm_num) s _ _ hready hnext
  have hs'' := (sameGrid_next g s _ _ hnext).1
  refine ⟨(s'.finishStep err).1, (s'.finishStep err).2, hnext, ?_, ?_, ?_, ?_, ?_, ?_, ?_, hr', sameGrid_trans hsame hs''⟩
  · rw [hfin]; split_ifs
    · exact .inr rfl
    · exact .inl rfl
  · intro h
    rw [hfin, if_pos (hsmall h)]
  · rw [hfin]; split_ifs <;> exact hin'
  · rw [hfin]; split_ifs <;> exact hmoved
  · rw [hfin]; split_ifs <;> rfl
  · rw [hfin]; split_ifs <;> simp [hs']
  · rw [hfin]; split_ifs <;> rfl

/-- A search from anywhere in the grid ends with code 1 after two steps at most. -/
theorem search_fl (H : FineEnough rnd g N u β Δ κ L M Y A) (hd : GoodDims dims) (hfit : ∀ i, dims i ≤ N) (hY : ∀ i, (dims i : ℝ) ≤ Y)
    (hgr : RegularGrid dims coords c A κ M) (nitermax : Int) (hnit : 3 ≤ nitermax) (tolpos : Fl rnd)
    (htol : (1 + u) ^ 6 * (Real.sqrt 2 * missError u β Δ κ ρ L M Y (firstError u β Δ κ ρ L M Y)) < tolpos.val) (f : Finder (Fl rnd) 2)
    (hf : Ready f) (hsame : SameGrid ((Finder.new nitermax tolpos).setGrid dims (fun _ => 0) coords) f) (d t : Fin 2 → Fl rnd) (hin : InGrid dims (vals d))
    (hrep : ∀ i, rnd (t i).val = (t i).val)
    (hbox : ∀ i, ∃ m < ∏ k, dims k, ∃ m' < ∏ k, dims k, (coords i m).val ≤ (t i).val ∧ (t i).val ≤ (coords i m').val)
    (x : Fin 2 → ℝ) (hx : InGrid dims x) (ht : ∀ i, |(t i).val - image c A x i| ≤ ρ) :
    ∃ c1 s1, (f.reset d t).next g = .ok (c1, s1) ∧ InGrid dims (vals s1.dIndices) ∧ (∀ k, |(s1.dIndices k).val - x k| ≤ firstError u β Δ κ ρ L M Y) ∧
      (c1 = 1 ∨ c1 = 0 ∧ ∃ s2, s1.next g = .ok (1, s2) ∧ InGrid dims (vals s2.dIndices) ∧
        ∀ k, |(s2.dIndices k).val - x k| ≤ secondError u β Δ κ ρ L M Y) := by
  have hy : ∀ k, |x k - vals d k| ≤ Y := by
    intro k
    have h1 := hx k
    have h2 := hin k
    have h3 := hY k
    rw [abs_le]
    constructor <;> linarith [h1.1, h1.2, h2.1, h2.2]
  obtain ⟨c1, s1, e1, hc, -, i1, n1, it1, h1, t1, r1, q1⟩ := step_fl H hd hfit hY hgr nitermax tolpos (f.reset d t) (ready_reset f d t hf)
    ⟨hsame.coords, hsame.bounds, hsame.per, hsame.dims, hsame.nitermax, hsame.tolpos⟩ hin (by show ((0 : Int)) + 1 < nitermax; omega) (by simp [Finder.reset]) hrep hbox x hx hy ht
  refine ⟨c1, s1, e1, i1, n1, ?_⟩
  rcases hc with hc | hc
  · right
    have it1' : s1.iter = 0 + 1 := it1
    have h1' : s1.errorHistory.length = 0 + 1 := h1
    have t1' : s1.targetPoint = t := t1
    obtain ⟨c2, s2, e2, -, hc2, i2, n2, -⟩ := step_fl (ρ := ρ) H hd hfit hY hgr nitermax tolpos s1 r1 q1 i1 (by rw [it1']; push_cast; omega) (by omega)
      (by rw [t1']; exact hrep) (by rw [t1']; exact hbox) x hx (fun k => by rw [abs_sub_comm]; exact n1 k) (by rw [t1']; exact ht)
    rw [hc2 htol] at e2
    exact ⟨hc, s2, e2, i2, n2⟩
  · exact .inl hc

end Sg.Regular
