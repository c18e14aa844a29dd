import Verif.Props.NodeAccuracy
import Verif.Props.SearchRounding
/-
Property C155: accuracy of nodal interpolation in rounded arithmetic.
-/
namespace Sg.Props
open Sg Sg.FindPoint Sg.LinearSolve Sg.Spec Sg.NodeInterp

variable {rnd : ℝ → ℝ}

/-- The tolerance of the search with the rounding errors of the distance and of the place, for coordinates up to `M`. -/
noncomputable def roundedTol (u tol M : ℝ) : ℝ := tol / (1 - u) ^ 6 + Real.sqrt 2 * (((1 + u) ^ 11 - 1) * M)

/-- Everything about one entry: weights without rounding that the stored ones are near to, and the value written by `apply`. -/
theorem entry_fl {u : ℝ} (hr : Rounds rnd u 0) (hu : u < 1) {N : Nat} (hN : KeepsInts rnd N) (h31 : 2 ^ 31 ≤ N) (g : Gels (Fl rnd)) (hg : KeepsSizes g)
    (nitermax : Int) (tolpos : Fl rnd) (dims : Fin 2 → Nat) (hd : ∀ i, 2 ≤ dims i ∧ dims i ≤ 2 ^ 30) (per : Fin 2 → Int)
    (coords : Fin 2 → Nat → Fl rnd) (M : ℝ) (hM0 : 0 ≤ M) (hM : ∀ i, ∀ m < dims 0 * dims 1, |(coords i m).val| ≤ M)
    (dd : Fin 2 → Nat) (dc : Fin 2 → Nat → Fl rnd) (src dst : List (Fl rnd)) (hsrc : src.length = dims 0 * dims 1)
    (hdst : dst.length = dd 0 * dd 1) (Φ : ℝ) (hΦ : ∀ v ∈ src, |v.val| ≤ Φ) :
    ∃ o d, (((new nitermax tolpos).setSrcGrid dims per coords).setDstGrid dd dc).computeWeights g = .ok o ∧ o.apply src dst = .ok d ∧
      ∀ k iw, (k, iw) ∈ o.weights → k < dd 0 * dd 1 ∧ ∃ v, d[k]? = some v ∧ ∃ iwR : List (Int × ℝ), (∀ e ∈ iwR, 0 ≤ e.2) ∧ (iwR.map Prod.snd).sum = 1 ∧
        distance (fun i => (iwR.map fun e => e.2 * (coords i e.1.toNat).val).sum) (fun i => (dc i k).val) < roundedTol u tolpos.val M ∧
        |v.val - (iwR.map fun e => e.2 * (src.getD e.1.toNat 0).val).sum| ≤ ((1 + u) ^ 11 - 1) * Φ ∧
        (∀ e ∈ iwR, e.1.toNat < dims 0 * dims 1) ∧
        ∃ a b, a + 1 < dims 0 ∧ b + 1 < dims 1 ∧ ∀ e ∈ iwR, ∃ p : Nat × Nat, (p.1 = a ∨ p.1 = a + 1) ∧ (p.2 = b ∨ p.2 = b + 1) ∧
          e.1 = ((p.1 * dims 1 + p.2 : Nat) : Int) := by
  obtain ⟨o, ho, ht, hent⟩ := table_fl hN h31 g hg nitermax tolpos dims hd per coords dd dc
  have hgd : GoodDims dims := fun i => ⟨(hd i).1, (hd i).2.trans (by norm_num)⟩
  have hfit : ∀ i, dims i ≤ N := fun i => (hd i).2.trans (by omega)
  have hprod : ∏ i, dims i = dims 0 * dims 1 := Fin.prod_univ_two _
  obtain ⟨d', ha, hl, h3, h4⟩ := apply_ok o src dst ht.keys (by rw [hdst]; exact ht.dst) (by rw [hsrc]; exact ht.src)
  refine ⟨o, d', ho, ha, fun k iw hk => ⟨ht.dst _ hk, _, h3 (k, iw) hk, ?_⟩⟩
  obtain ⟨d, hin, hiw, p, hp, hlt⟩ := hent k iw hk
  obtain ⟨iw', iwR, -, h2, -, -⟩ := C107_weights hr hN dims hgd hfit d hin
  obtain ⟨iwR', h5, -, h7, h8⟩ := C28_partition_of_unity dims hgd (vals d) hin
  rw [h2, Except.ok.injEq] at h5
  subst h5
  obtain ⟨iwR', h5, hcor⟩ := C29_indices_are_corners dims hgd (vals d) hin
  rw [h2, Except.ok.injEq] at h5
  subst h5
  -- a field, without rounding
  have exact : ∀ f : List (Fl rnd), f.length = dims 0 * dims 1 → ∀ w, interp dims (vals d) (f.map Fl.val) = .ok w →
      w = (iwR.map fun e => e.2 * (f.getD e.1.toNat 0).val).sum ∧ ∀ e ∈ iwR, e.1.toNat < dims 0 * dims 1 := by
    intro f hf w hw
    obtain ⟨e1, e2⟩ := interp_entryVal dims hgd (vals d) hin (f.map Fl.val) (by rw [List.length_map, hf, hprod]) iwR h2
    rw [hw, Except.ok.injEq, entryVal_eq] at e1
    have hb : ∀ e ∈ iwR, e.1.toNat < dims 0 * dims 1 := by
      intro e he
      obtain ⟨p0, p1⟩ := e2 e he
      rw [List.length_map, hf] at p1
      omega
    refine ⟨?_, hb⟩
    rw [e1]
    congr 1
    refine List.map_congr_left fun e he => ?_
    have := hb e he
    rw [List.getD_eq_getElem?_getD, List.getD_eq_getElem?_getD, List.getElem?_map, List.getElem?_eq_getElem (by omega)]
    rfl
  obtain ⟨v, w, hv, hw, he⟩ := C107_interp hr hN dims hgd hfit d hin src (by rw [hprod]; exact hsrc) Φ
    (fun m v _ hv => hΦ v (List.mem_of_getElem? hv))
  rw [interp_fl dims hgd d hin src (by rw [hprod]; exact hsrc), Except.ok.injEq] at hv
  subst hv
  rw [getSrc_fl dims hgd d hin, Except.ok.injEq] at hiw
  have e : entryVal src iw = dot ((List.range (2 ^ 2)).map fun j =>
      (weightFl dims d j, src.getD (rowMajor dims (cornerNode dims (vals d) j)) 0)) := by
    rw [← hiw]
    unfold entryVal dot
    rw [List.foldl_map, List.foldl_map]
    rfl
  obtain ⟨hwe, hbnd⟩ := exact src hsrc w hw
  refine ⟨iwR, fun e he => (h7 e he).1, h8, ?_, ?_, hbnd, ?_⟩
  · have key : ∀ i, |(p i).val - (iwR.map fun e => e.2 * (coords i e.1.toNat).val).sum| ≤ ((1 + u) ^ 11 - 1) * M := by
      intro i
      obtain ⟨v, w, hv, hw, he⟩ := C107_interp hr hN dims hgd hfit d hin ((List.range (∏ i, dims i)).map (coords i)) (by simp) M
        (fun m v hm hv => by
          rw [List.getElem?_map, Option.map_eq_some_iff] at hv
          obtain ⟨y, hy, rfl⟩ := hv
          obtain ⟨hlt, rfl⟩ := List.getElem?_eq_some_iff.mp hy
          rw [List.length_range] at hlt
          rw [List.getElem_range]
          exact hM i _ (by rw [← hprod]; exact hlt))
      rw [hp i, Except.ok.injEq] at hv
      subst hv
      obtain ⟨e1, -⟩ := exact _ (by simp [hprod]) w hw
      have e3 : (iwR.map fun e => e.2 * (coords i e.1.toNat).val).sum = w := by
        rw [e1]
        congr 1
        refine List.map_congr_left fun e he => ?_
        have := hbnd e he
        rw [List.getD_eq_getElem?_getD, List.getElem?_map, List.getElem?_range (by omega)]
        rfl
      rw [e3]
      exact he
    have hδ : 0 ≤ ((1 + u) ^ 11 - 1) * M := mul_nonneg (sub_nonneg.2 (one_le_pow₀ (by linarith [hr.rel]))) hM0
    have hg := gap_le (vals p) (fun i => (iwR.map fun e : Int × ℝ => e.2 * (coords i e.1.toNat).val).sum) _ hδ key
    obtain ⟨b1, -⟩ := flDist_bounds hr hu.le p (fun i => dc i k)
    have hp6 : 0 < (1 - u) ^ 6 := pow_pos (by linarith) _
    have h6 : gap (vals p) (vals fun i => dc i k) < tolpos.val / (1 - u) ^ 6 := by
      rw [lt_div_iff₀ hp6, mul_comm]
      exact b1.trans_lt hlt
    have t := gap_triangle (fun i => (iwR.map fun e : Int × ℝ => e.2 * (coords i e.1.toNat).val).sum) (vals p) (vals fun i => dc i k)
    rw [gap_comm _ (vals p)] at t
    have hs : Real.sqrt ((2 : Nat) : ℝ) = Real.sqrt 2 := by norm_num
    rw [hs] at hg
    show gap (fun i => (iwR.map fun e => e.2 * (coords i e.1.toNat).val).sum) (vals fun i => dc i k) < _
    unfold roundedTol
    linarith
  · show |(entryVal src iw).val - _| ≤ _
    rw [e, ← hwe]
    exact he
  · have hb := fun j => (cellLo_bounds dims hgd (vals d) hin j).2.2
    refine ⟨cellLo dims (vals d) 0, cellLo dims (vals d) 1, by have := hb 0; omega, by have := hb 1; omega, ?_⟩
    intro e he
    obtain ⟨m, hm, hem⟩ := (hcor e.1).1 (List.mem_map_of_mem (f := Prod.fst) he)
    refine ⟨(m 0, m 1), hm 0, hm 1, ?_⟩
    rw [hem]
    congr 1
    rw [rowMajor_succ, rowMajor_succ]
    simp [rowMajor]

/-- **C155** (linear fields) In any arithmetic with roundings of relative error at most `u < 1` that keeps the order and the integers up to `2^31`: source values within
`δ` of a linear field `b0 + b · x`, and up to `Φ`, give at every destination node with weights the value of the field, up to the length of `b` times the tolerance,
`δ`, and the rounding errors. -/
theorem C155_linear {u : ℝ} (hr : Rounds rnd u 0) (hu : u < 1) {N : Nat} (hN : KeepsInts rnd N) (h31 : 2 ^ 31 ≤ N) (g : Gels (Fl rnd)) (hg : KeepsSizes g)
    (nitermax : Int) (tolpos : Fl rnd) (dims : Fin 2 → Nat) (hd : ∀ i, 2 ≤ dims i ∧ dims i ≤ 2 ^ 30) (per : Fin 2 → Int)
    (coords : Fin 2 → Nat → Fl rnd) (M : ℝ) (hM0 : 0 ≤ M) (hM : ∀ i, ∀ m < dims 0 * dims 1, |(coords i m).val| ≤ M)
    (dd : Fin 2 → Nat) (dc : Fin 2 → Nat → Fl rnd) (b0 : ℝ) (b : Fin 2 → ℝ) (δ : ℝ) (src dst : List (Fl rnd)) (hsrc : src.length = dims 0 * dims 1)
    (hfield : ∀ m < dims 0 * dims 1, ∃ v, src[m]? = some v ∧ |v.val - (b0 + ∑ i, b i * (coords i m).val)| ≤ δ)
    (hdst : dst.length = dd 0 * dd 1) (Φ : ℝ) (hΦ : ∀ v ∈ src, |v.val| ≤ Φ) :
    ∃ o d, (((new nitermax tolpos).setSrcGrid dims per coords).setDstGrid dd dc).computeWeights g = .ok o ∧ o.apply src dst = .ok d ∧
      ∀ k iw, (k, iw) ∈ o.weights → ∃ v, d[k]? = some v ∧
        |v.val - (b0 + ∑ i, b i * (dc i k).val)| ≤ Real.sqrt (∑ i, b i ^ 2) * roundedTol u tolpos.val M + δ + ((1 + u) ^ 11 - 1) * Φ := by
  obtain ⟨o, d, ho, h1, h2⟩ := entry_fl hr hu hN h31 g hg nitermax tolpos dims hd per coords M hM0 hM dd dc src dst hsrc hdst Φ hΦ
  refine ⟨o, d, ho, h1, ?_⟩
  intro k iw hk
  obtain ⟨_, v, hv, iwR, w0, w1, w2, w3, w4, _⟩ := h2 k iw hk
  refine ⟨v, hv, ?_⟩
  have hm := mean_value (fun e i => (coords i e.toNat).val) (fun e => (src.getD e.toNat 0).val) (b0 + ∑ i, b i * (dc i k).val) δ b
    (fun i => (dc i k).val) iwR w0 w1 (by
      intro e he
      obtain ⟨y, hy, hy2⟩ := hfield _ (w4 e he)
      have : (src.getD e.1.toNat 0).val - (b0 + ∑ i, b i * (dc i k).val) - ∑ i, b i * ((coords i e.1.toNat).val - (dc i k).val) =
          y.val - (b0 + ∑ i, b i * (coords i e.1.toNat).val) := by
        rw [List.getD_eq_getElem?_getD, hy]
        simp only [Fin.sum_univ_two, Option.getD_some]; ring
      rw [this]; exact hy2)
  have hc : |∑ i, b i * ((iwR.map fun e => e.2 * (coords i e.1.toNat).val).sum - (dc i k).val)| ≤ Real.sqrt (∑ i, b i ^ 2) * roundedTol u tolpos.val M :=
    (cauchy _ _).trans (mul_le_mul_of_nonneg_left w2.le (Real.sqrt_nonneg _))
  have a1 := abs_le.1 hm
  have a2 := abs_le.1 hc
  have a3 := abs_le.1 w3
  rw [abs_le]
  constructor <;> linarith [a1.1, a1.2, a2.1, a2.2, a3.1, a3.2]

/-- **C155** (smooth fields) The same for a field that is, near each destination node, within `B` times the square of the distance of a linear function of slope `L` at
most: the error is of second order in the size `h` of the cells, up to the tolerance and the rounding errors. -/
theorem C155_smooth {u : ℝ} (hr : Rounds rnd u 0) (hu : u < 1) {N : Nat} (hN : KeepsInts rnd N) (h31 : 2 ^ 31 ≤ N) (g : Gels (Fl rnd)) (hg : KeepsSizes g)
    (nitermax : Int) (tolpos : Fl rnd) (dims : Fin 2 → Nat) (hd : ∀ i, 2 ≤ dims i ∧ dims i ≤ 2 ^ 30) (per : Fin 2 → Int)
    (coords : Fin 2 → Nat → Fl rnd) (M : ℝ) (hM0 : 0 ≤ M) (hM : ∀ i, ∀ m < dims 0 * dims 1, |(coords i m).val| ≤ M)
    (dd : Fin 2 → Nat) (dc : Fin 2 → Nat → Fl rnd) (h : ℝ) (hh : CellsWithin dims (fun i m => (coords i m).val) h) (φ : (Fin 2 → ℝ) → ℝ) (L B : ℝ) (hB : 0 ≤ B)
    (hφ : ∀ k < dd 0 * dd 1, SmoothAt φ (fun i => (dc i k).val) L B) (δ : ℝ) (src dst : List (Fl rnd)) (hsrc : src.length = dims 0 * dims 1)
    (hfield : ∀ m < dims 0 * dims 1, ∃ v, src[m]? = some v ∧ |v.val - φ fun i => (coords i m).val| ≤ δ)
    (hdst : dst.length = dd 0 * dd 1) (Φ : ℝ) (hΦ : ∀ v ∈ src, |v.val| ≤ Φ) :
    ∃ o d, (((new nitermax tolpos).setSrcGrid dims per coords).setDstGrid dd dc).computeWeights g = .ok o ∧ o.apply src dst = .ok d ∧
      ∀ k iw, (k, iw) ∈ o.weights → ∃ v, d[k]? = some v ∧
        |v.val - φ fun i => (dc i k).val| ≤
          L * roundedTol u tolpos.val M + B * (h + roundedTol u tolpos.val M) ^ 2 + δ + ((1 + u) ^ 11 - 1) * Φ := by
  obtain ⟨o, d, ho, h1, h2⟩ := entry_fl hr hu hN h31 g hg nitermax tolpos dims hd per coords M hM0 hM dd dc src dst hsrc hdst Φ hΦ
  refine ⟨o, d, ho, h1, ?_⟩
  intro k iw hk
  obtain ⟨hkd, v, hv, iwR, w0, w1, w2, w3, w4, hcell⟩ := h2 k iw hk
  refine ⟨v, hv, ?_⟩
  have hnear := corner_near dims (fun i m => (coords i m).val) h (roundedTol u tolpos.val M) hh _ iwR w0 w1 w2 hcell
  obtain ⟨G, hG, hq⟩ := hφ k hkd
  have hm := mean_value (fun e i => (coords i e.toNat).val) (fun e => (src.getD e.toNat 0).val) (φ fun i => (dc i k).val)
    (B * (h + roundedTol u tolpos.val M) ^ 2 + δ) G (fun i => (dc i k).val) iwR w0 w1 (by
      intro e he
      obtain ⟨y, hy, hy2⟩ := hfield _ (w4 e he)
      have e1 : (src.getD e.1.toNat 0).val = y.val := by rw [List.getD_eq_getElem?_getD, hy]; rfl
      have e2 := (hq fun i => (coords i e.1.toNat).val).trans
        (mul_le_mul_of_nonneg_left (pow_le_pow_left₀ (Real.sqrt_nonneg _) (hnear e he) 2) hB)
      rw [e1]
      have a1 := abs_le.1 hy2
      have a2 := abs_le.1 e2
      rw [abs_le]
      constructor <;> linarith [a1.1, a1.2, a2.1, a2.2])
  have hc := cauchy G (fun i => (iwR.map fun e => e.2 * (coords i e.1.toNat).val).sum - (dc i k).val)
  have w2' : Real.sqrt (∑ i, ((iwR.map fun e => e.2 * (coords i e.1.toNat).val).sum - (dc i k).val) ^ 2) ≤ roundedTol u tolpos.val M := w2.le
  have hb : |∑ i, G i * ((iwR.map fun e => e.2 * (coords i e.1.toNat).val).sum - (dc i k).val)| ≤ L * roundedTol u tolpos.val M :=
    hc.trans (mul_le_mul hG w2' (Real.sqrt_nonneg _) ((Real.sqrt_nonneg _).trans hG))
  have a1 := abs_le.1 hm
  have a2 := abs_le.1 hb
  have a3 := abs_le.1 w3
  rw [abs_le]
  constructor <;> linarith [a1.1, a1.2, a2.1, a2.2, a3.1, a3.2]

/-! ### Double precision -/

theorem roundedTol_double (tol M : ℝ) (ht : 0 ≤ tol) (hM : 0 ≤ M) :
    roundedTol (2 ^ (-((53 : Nat) : ℤ))) tol M ≤ tol + 2 / 10 ^ 15 * (tol + M) := by
  unfold roundedTol
  have e1 : tol / (1 - 2 ^ (-((53 : Nat) : ℤ))) ^ 6 ≤ tol + 2 / 10 ^ 15 * tol := by
    rw [div_le_iff₀ (by norm_num)]
    have : (1 : ℝ) ≤ (1 + 2 / 10 ^ 15) * (1 - 2 ^ (-((53 : Nat) : ℤ))) ^ 6 := by norm_num
    nlinarith
  have e2 : Real.sqrt 2 * (((1 + 2 ^ (-((53 : Nat) : ℤ))) ^ 11 - 1) * M) ≤ 2 / 10 ^ 15 * M := by
    rw [← mul_assoc]
    refine mul_le_mul_of_nonneg_right ?_ hM
    have hs : Real.sqrt 2 ≤ 3 / 2 := by rw [Real.sqrt_le_iff]; norm_num
    have hd : ((1 + 2 ^ (-((53 : Nat) : ℤ))) ^ 11 - 1 : ℝ) ≤ 13 / 10 ^ 16 := by norm_num
    have h0 : (0 : ℝ) ≤ (1 + 2 ^ (-((53 : Nat) : ℤ))) ^ 11 - 1 := by norm_num
    calc _ ≤ 3 / 2 * (13 / 10 ^ 16 : ℝ) := mul_le_mul hs hd h0 (by norm_num)
      _ ≤ 2 / 10 ^ 15 := by norm_num
  linarith

/-- **C155** in double precision: a linear field, with source values up to `Φ` that are within `δ` of it. -/
theorem C155_double (g : Gels (Fl (nearest 53))) (hg : KeepsSizes g)
    (nitermax : Int) (tolpos : Fl (nearest 53)) (htol : 0 ≤ tolpos.val) (dims : Fin 2 → Nat) (hd : ∀ i, 2 ≤ dims i ∧ dims i ≤ 2 ^ 30) (per : Fin 2 → Int)
    (coords : Fin 2 → Nat → Fl (nearest 53)) (M : ℝ) (hM0 : 0 ≤ M) (hM : ∀ i, ∀ m < dims 0 * dims 1, |(coords i m).val| ≤ M)
    (dd : Fin 2 → Nat) (dc : Fin 2 → Nat → Fl (nearest 53)) (b0 : ℝ) (b : Fin 2 → ℝ) (δ : ℝ) (src dst : List (Fl (nearest 53)))
    (hsrc : src.length = dims 0 * dims 1)
    (hfield : ∀ m < dims 0 * dims 1, ∃ v, src[m]? = some v ∧ |v.val - (b0 + ∑ i, b i * (coords i m).val)| ≤ δ)
    (hdst : dst.length = dd 0 * dd 1) (Φ : ℝ) (hΦ0 : 0 ≤ Φ) (hΦ : ∀ v ∈ src, |v.val| ≤ Φ) :
    ∃ o d, (((new nitermax tolpos).setSrcGrid dims per coords).setDstGrid dd dc).computeWeights g = .ok o ∧ o.apply src dst = .ok d ∧
      ∀ k iw, (k, iw) ∈ o.weights → ∃ v, d[k]? = some v ∧
        |v.val - (b0 + ∑ i, b i * (dc i k).val)| ≤
          Real.sqrt (∑ i, b i ^ 2) * (tolpos.val + 2 / 10 ^ 15 * (tolpos.val + M)) + δ + 2 / 10 ^ 15 * Φ := by
  obtain ⟨o, d, ho, h1, h2⟩ := C155_linear (nearest_rounds 53) (by norm_num) (nearest_ints 53 (by norm_num)) (by norm_num) g hg nitermax tolpos dims hd per coords M hM0 hM
    dd dc b0 b δ src dst hsrc hfield hdst Φ hΦ
  refine ⟨o, d, ho, h1, fun k iw hk => ?_⟩
  obtain ⟨v, hv, hb⟩ := h2 k iw hk
  refine ⟨v, hv, hb.trans ?_⟩
  have e1 := mul_le_mul_of_nonneg_left (roundedTol_double tolpos.val M htol hM0) (Real.sqrt_nonneg (∑ i, b i ^ 2))
  have e2 : ((1 + 2 ^ (-((53 : Nat) : ℤ))) ^ 11 - 1) * Φ ≤ 2 / 10 ^ 15 * Φ := mul_le_mul_of_nonneg_right (by norm_num) hΦ0
  linarith

/-- The hypotheses are met, and the table has an entry: the field `x0` on the unit square, and the first node as destination. -/
example : ∃ o d iw v, (((new 2 (⟨1⟩ : Fl (nearest 53))).setSrcGrid ![2, 2] ![0, 0] squareNodes).setDstGrid ![1, 1] (fun _ _ => ⟨0⟩)).computeWeights
    stepBack = .ok o ∧ o.apply ((List.range 4).map (squareNodes 0)) [⟨5⟩] = .ok d ∧ (0, iw) ∈ o.weights ∧ d[0]? = some v ∧ |v.val| ≤ 1 + 1 / 10 ^ 14 := by
  have hd : ∀ i : Fin 2, 2 ≤ (![2, 2] : Fin 2 → Nat) i ∧ (![2, 2] : Fin 2 → Nat) i ≤ 2 ^ 30 := by intro i; fin_cases i <;> simp
  have hb : ∀ i m, |(squareNodes i m : Fl (nearest 53)).val| ≤ 1 := by
    intro i m
    unfold squareNodes
    split_ifs <;> norm_num
  obtain ⟨o', iw, ho', hiw⟩ := squareTable
  obtain ⟨o, d, ho, h1, h2⟩ := C155_double stepBack (fun r => ⟨rfl, by simp [stepBack]⟩) 2 ⟨1⟩ zero_le_one ![2, 2] hd ![0, 0] squareNodes 1 zero_le_one
    (fun i m _ => hb i m) ![1, 1] (fun _ _ => ⟨0⟩) 0 ![1, 0] 0 ((List.range 4).map (squareNodes 0)) [⟨5⟩] rfl
    (fun m hm => ⟨squareNodes 0 m, by rw [List.getElem?_map, List.getElem?_range (show m < 4 from hm)]; rfl, by simp⟩) rfl 1 zero_le_one
    (fun v hv => by obtain ⟨m, -, rfl⟩ := List.mem_map.1 hv; exact hb 0 m)
  rw [ho, Except.ok.injEq] at ho'
  subst ho'
  obtain ⟨v, hv, hv2⟩ := h2 0 iw hiw
  refine ⟨o, d, iw, v, ho, h1, hiw, hv, ?_⟩
  have e : (0 : ℝ) + ∑ i : Fin 2, (![1, 0] : Fin 2 → ℝ) i * (⟨0⟩ : Fl (nearest 53)).val = 0 := by simp
  have e' : Real.sqrt (∑ i : Fin 2, (![1, 0] : Fin 2 → ℝ) i ^ 2) = 1 := by simp
  rw [e, e', sub_zero] at hv2
  refine hv2.trans ?_
  norm_num

end Sg.Props
