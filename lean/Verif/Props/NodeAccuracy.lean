import Verif.Spec.Accuracy
import Verif.Props.NodeInterp
import Verif.Props.Stretched
import Mathlib.Analysis.InnerProductSpace.PiL2
import Mathlib.Algebra.Order.Chebyshev
/-
Property C100: accuracy of nodal interpolation on any grid.
-/
namespace Sg.Props
open Sg Sg.FindPoint Sg.LinearSolve Sg.Spec Sg.NodeInterp Sg.Witness

theorem distance_eq {n : Nat} (p q : Fin n → ℝ) : distance p q = dist (WithLp.toLp 2 p) (WithLp.toLp 2 q) := by
  rw [EuclideanSpace.dist_eq]
  unfold distance
  congr 1
  refine Finset.sum_congr rfl fun i _ => ?_
  rw [Real.dist_eq, sq_abs]

theorem distance_triangle {n : Nat} (p q s : Fin n → ℝ) : distance p s ≤ distance p q + distance q s := by
  rw [distance_eq, distance_eq, distance_eq]
  exact dist_triangle _ _ _

theorem distance_comm {n : Nat} (p q : Fin n → ℝ) : distance p q = distance q p := by
  rw [distance_eq, distance_eq, dist_comm]

theorem cauchy {n : Nat} (G v : Fin n → ℝ) : |∑ i, G i * v i| ≤ Real.sqrt (∑ i, G i ^ 2) * Real.sqrt (∑ i, v i ^ 2) := by
  rw [← Real.sqrt_mul (Finset.sum_nonneg fun i _ => sq_nonneg _), ← Real.sqrt_sq_eq_abs]
  exact Real.sqrt_le_sqrt (Finset.sum_mul_sq_le_sq_mul_sq _ _ _)

/-- A mean of points within `h` of `q` is within `h` of `q`. -/
theorem mean_near {n : Nat} (P : Int → Fin n → ℝ) (q : Fin n → ℝ) (h : ℝ) (l : List (Int × ℝ)) (h0 : ∀ e ∈ l, 0 ≤ e.2)
    (h1 : (l.map Prod.snd).sum = 1) (hl : ∀ e ∈ l, distance (P e.1) q ≤ h) :
    distance (fun i => (l.map fun e => e.2 * P e.1 i).sum) q ≤ h := by
  have key : ∀ l : List (Int × ℝ), (∀ e ∈ l, 0 ≤ e.2) → (∀ e ∈ l, distance (P e.1) q ≤ h) →
      ‖WithLp.toLp 2 (fun i => (l.map fun e => e.2 * P e.1 i).sum) - (l.map Prod.snd).sum • WithLp.toLp 2 q‖ ≤ h * (l.map Prod.snd).sum := by
    intro l
    induction l with
    | nil =>
      intro _ _
      have : (WithLp.toLp 2 (fun i : Fin n => (([] : List (Int × ℝ)).map fun e => e.2 * P e.1 i).sum)) = 0 := by
        ext i; simp
      rw [this]; simp
    | cons e l ih =>
      intro h0 hl
      have hi := ih (fun x hx => h0 x (List.mem_cons_of_mem _ hx)) (fun x hx => hl x (List.mem_cons_of_mem _ hx))
      have he := hl e (List.mem_cons_self ..)
      have he0 := h0 e (List.mem_cons_self ..)
      rw [distance_eq, dist_eq_norm] at he
      have split : WithLp.toLp 2 (fun i => ((e :: l).map fun e => e.2 * P e.1 i).sum) - ((e :: l).map Prod.snd).sum • WithLp.toLp 2 q =
          e.2 • (WithLp.toLp 2 (P e.1) - WithLp.toLp 2 q) +
          (WithLp.toLp 2 (fun i => (l.map fun e => e.2 * P e.1 i).sum) - (l.map Prod.snd).sum • WithLp.toLp 2 q) := by
        ext i
        simp
        ring
      rw [split]
      refine (norm_add_le _ _).trans ?_
      rw [norm_smul, Real.norm_of_nonneg he0, List.map_cons, List.sum_cons]
      nlinarith [mul_le_mul_of_nonneg_left he he0]
  have := key l h0 hl
  rw [h1, one_smul, mul_one, ← dist_eq_norm, ← distance_eq] at this
  exact this

/-- A mean of values that are near a linear function of the points is near its value at the mean of the points. -/
theorem mean_value {n : Nat} (P : Int → Fin n → ℝ) (f : Int → ℝ) (a B : ℝ) (G x : Fin n → ℝ) (l : List (Int × ℝ)) (h0 : ∀ e ∈ l, 0 ≤ e.2)
    (h1 : (l.map Prod.snd).sum = 1) (hl : ∀ e ∈ l, |f e.1 - a - ∑ i, G i * (P e.1 i - x i)| ≤ B) :
    |(l.map fun e => e.2 * f e.1).sum - a - ∑ i, G i * ((l.map fun e => e.2 * P e.1 i).sum - x i)| ≤ B := by
  have key : ∀ l : List (Int × ℝ), (∀ e ∈ l, 0 ≤ e.2) → (∀ e ∈ l, |f e.1 - a - ∑ i, G i * (P e.1 i - x i)| ≤ B) →
      |(l.map fun e => e.2 * f e.1).sum - (l.map Prod.snd).sum * a -
        ∑ i, G i * ((l.map fun e => e.2 * P e.1 i).sum - (l.map Prod.snd).sum * x i)| ≤ B * (l.map Prod.snd).sum := by
    intro l
    induction l with
    | nil => intro _ _; simp
    | cons e l ih =>
      intro h0 hl
      have hi := ih (fun x hx => h0 x (List.mem_cons_of_mem _ hx)) (fun x hx => hl x (List.mem_cons_of_mem _ hx))
      have he := hl e (List.mem_cons_self ..)
      have he0 := h0 e (List.mem_cons_self ..)
      simp only [List.map_cons, List.sum_cons]
      have split : e.2 * f e.1 + (l.map fun e => e.2 * f e.1).sum - (e.2 + (l.map Prod.snd).sum) * a -
          ∑ i, G i * (e.2 * P e.1 i + (l.map fun e => e.2 * P e.1 i).sum - (e.2 + (l.map Prod.snd).sum) * x i) =
          e.2 * (f e.1 - a - ∑ i, G i * (P e.1 i - x i)) + ((l.map fun e => e.2 * f e.1).sum - (l.map Prod.snd).sum * a -
            ∑ i, G i * ((l.map fun e => e.2 * P e.1 i).sum - (l.map Prod.snd).sum * x i)) := by
        have : ∑ i, G i * (e.2 * P e.1 i + (l.map fun e => e.2 * P e.1 i).sum - (e.2 + (l.map Prod.snd).sum) * x i) =
            e.2 * ∑ i, G i * (P e.1 i - x i) + ∑ i, G i * ((l.map fun e => e.2 * P e.1 i).sum - (l.map Prod.snd).sum * x i) := by
          rw [Finset.mul_sum, ← Finset.sum_add_distrib]
          exact Finset.sum_congr rfl fun i _ => by ring
        rw [this]; ring
      rw [split]
      refine (abs_add_le _ _).trans ?_
      rw [abs_mul, abs_of_nonneg he0]
      nlinarith [mul_le_mul_of_nonneg_left he he0]
  have := key l h0 hl
  rw [h1, mul_one] at this
  simpa using this

/-- The nodes of an entry are corners of one cell. -/
theorem entry_cell (g : Gels ℝ) (hg : KeepsSizes g) (nitermax : Int) (tolpos : ℝ) (dims : Fin 2 → Nat)
    (hd : ∀ i, 2 ≤ dims i ∧ dims i ≤ 2 ^ 30) (per : Fin 2 → Int) (coords : Fin 2 → Nat → ℝ) (dd : Fin 2 → Nat)
    (dc : Fin 2 → Nat → ℝ) (o : NodeInterp ℝ)
    (ho : (((new nitermax tolpos).setSrcGrid dims per coords).setDstGrid dd dc).computeWeights g = .ok o) (k : Nat) (iw : List (Int × ℝ))
    (hk : (k, iw) ∈ o.weights) :
    k < dd 0 * dd 1 ∧ ∃ a b, a + 1 < dims 0 ∧ b + 1 < dims 1 ∧ ∀ e ∈ iw, ∃ p : Nat × Nat, (p.1 = a ∨ p.1 = a + 1) ∧ (p.2 = b ∨ p.2 = b + 1) ∧
      e.1 = ((p.1 * dims 1 + p.2 : Nat) : Int) := by
  set o0 := (((new nitermax tolpos).setSrcGrid dims per coords).setDstGrid dd dc) with ho0
  have hset := set2_of nitermax tolpos dims hd per coords dd dc
  obtain ⟨s, hs, hl⟩ := before_good g hg o0 dims hset o0.dstNumPoints (le_refl _)
  have hgd : GoodDims dims := fun i => ⟨(hd i).1, (hd i).2.trans (by norm_num)⟩
  rw [computeWeights_set g o0 rfl rfl, hs] at ho
  simp only [bind, Except.bind, pure, Except.pure, Except.ok.injEq] at ho
  have hk : (k, iw) ∈ s.weights := by rw [← ho] at hk; exact hk
  refine ⟨hl.keys _ hk, ?_⟩
  obtain ⟨d, t, hin, _, hiw, _⟩ := hl.entries (k, iw) hk
  have hin : InGrid dims d := hin
  have hiw : getSrcIndicesAndWeights dims d = .ok iw := hiw
  obtain ⟨iw', h1, h2⟩ := C29_indices_are_corners dims hgd d hin
  rw [hiw, Except.ok.injEq] at h1
  subst h1
  have hb := fun j => (cellLo_bounds dims hgd d hin j).2.2
  refine ⟨cellLo dims d 0, cellLo dims d 1, by have := hb 0; omega, by have := hb 1; omega, ?_⟩
  intro e he
  obtain ⟨m, hm, hem⟩ := (h2 e.1).1 (List.mem_map_of_mem (f := Prod.fst) he)
  refine ⟨(m 0, m 1), hm 0, hm 1, ?_⟩
  rw [hem]
  congr 1
  rw [rowMajor_succ, rowMajor_succ]
  simp [rowMajor]

/-- Everything about one entry. -/
theorem entry_value (g : Gels ℝ) (hg : KeepsSizes g) (nitermax : Int) (tolpos : ℝ) (dims : Fin 2 → Nat)
    (hd : ∀ i, 2 ≤ dims i ∧ dims i ≤ 2 ^ 30) (per : Fin 2 → Int) (coords : Fin 2 → Nat → ℝ) (dd : Fin 2 → Nat)
    (dc : Fin 2 → Nat → ℝ) (φ : (Fin 2 → ℝ) → ℝ) (src dst : List ℝ) (hsrc : src.length = dims 0 * dims 1)
    (hfield : ∀ m < dims 0 * dims 1, src[m]? = some (φ fun i => coords i m)) (hdst : dst.length = dd 0 * dd 1) :
    ∃ o d, (((new nitermax tolpos).setSrcGrid dims per coords).setDstGrid dd dc).computeWeights g = .ok o ∧ o.apply src dst = .ok d ∧
      ∀ k iw, (k, iw) ∈ o.weights → k < dd 0 * dd 1 ∧ (∀ e ∈ iw, 0 ≤ e.2) ∧ (iw.map Prod.snd).sum = 1 ∧
        distance (fun i => (iw.map fun e => e.2 * coords i e.1.toNat).sum) (fun i => dc i k) < tolpos ∧
        d[k]? = some ((iw.map fun e => e.2 * φ fun i => coords i e.1.toNat).sum) ∧
        ∃ a b, a + 1 < dims 0 ∧ b + 1 < dims 1 ∧ ∀ e ∈ iw, ∃ p : Nat × Nat, (p.1 = a ∨ p.1 = a + 1) ∧ (p.2 = b ∨ p.2 = b + 1) ∧
          e.1 = ((p.1 * dims 1 + p.2 : Nat) : Int) := by
  obtain ⟨o, ho, ht, hsum⟩ := C38_table g hg nitermax tolpos dims hd per coords dd dc
  obtain ⟨d, h1, _, h2, _⟩ := C38_apply o src dst (by rw [hsrc, hdst]; exact ht)
  refine ⟨o, d, ho, h1, ?_⟩
  intro k iw hk
  obtain ⟨hkd, hcell⟩ := entry_cell g hg nitermax tolpos dims hd per coords dd dc o ho k iw hk
  obtain ⟨w0, w1, w2⟩ := hsum k iw hk
  refine ⟨hkd, fun e he => (w0 e he).1, w1, w2, ?_, hcell⟩
  rw [h2 k iw hk]
  congr 2
  refine List.map_congr_left fun e he => ?_
  obtain ⟨p0, p1⟩ := ht.src _ hk e he
  rw [List.getD_eq_getElem?_getD, hfield _ (by omega)]
  rfl

/-- **C100** (linear fields) Any two grids: at every destination node with weights, a field that is linear in the coordinates,
`b0 + b · x`, is interpolated with an error of at most the length of `b` times the tolerance. -/
theorem C100_linear (g : Gels ℝ) (hg : KeepsSizes g) (nitermax : Int) (tolpos : ℝ) (dims : Fin 2 → Nat)
    (hd : ∀ i, 2 ≤ dims i ∧ dims i ≤ 2 ^ 30) (per : Fin 2 → Int) (coords : Fin 2 → Nat → ℝ) (dd : Fin 2 → Nat)
    (dc : Fin 2 → Nat → ℝ) (b0 : ℝ) (b : Fin 2 → ℝ) (src dst : List ℝ) (hsrc : src.length = dims 0 * dims 1)
    (hfield : ∀ m < dims 0 * dims 1, src[m]? = some (b0 + ∑ i, b i * coords i m)) (hdst : dst.length = dd 0 * dd 1) :
    ∃ o d, (((new nitermax tolpos).setSrcGrid dims per coords).setDstGrid dd dc).computeWeights g = .ok o ∧ o.apply src dst = .ok d ∧
      ∀ k iw, (k, iw) ∈ o.weights → ∃ v, d[k]? = some v ∧
        |v - (b0 + ∑ i, b i * dc i k)| ≤ Real.sqrt (∑ i, b i ^ 2) * tolpos := by
  obtain ⟨o, d, ho, h1, h2⟩ := entry_value g hg nitermax tolpos dims hd per coords dd dc (fun x => b0 + ∑ i, b i * x i) src dst hsrc hfield hdst
  refine ⟨o, d, ho, h1, ?_⟩
  intro k iw hk
  obtain ⟨_, w0, w1, w2, hv, _⟩ := h2 k iw hk
  refine ⟨_, hv, ?_⟩
  have hm := mean_value (fun e i => coords i e.toNat) (fun e => b0 + ∑ i, b i * coords i e.toNat) (b0 + ∑ i, b i * dc i k) 0 b
    (fun i => dc i k) iw w0 w1 (by
      intro e _
      rw [abs_le]
      have : b0 + ∑ i, b i * coords i e.1.toNat - (b0 + ∑ i, b i * dc i k) - ∑ i, b i * (coords i e.1.toNat - dc i k) = 0 := by
        simp only [Fin.sum_univ_two]; ring
      rw [this]; simp)
  have hz := abs_nonpos_iff.1 hm
  rw [sub_eq_zero] at hz
  rw [hz]
  refine (cauchy _ _).trans (mul_le_mul_of_nonneg_left w2.le (Real.sqrt_nonneg _))

theorem corner_near (dims : Fin 2 → Nat) (coords : Fin 2 → Nat → ℝ) (h tolpos : ℝ) (hh : CellsWithin dims coords h) (x : Fin 2 → ℝ)
    (iw : List (Int × ℝ)) (w0 : ∀ e ∈ iw, 0 ≤ e.2) (w1 : (iw.map Prod.snd).sum = 1)
    (w2 : distance (fun i => (iw.map fun e => e.2 * coords i e.1.toNat).sum) x < tolpos)
    (hcell : ∃ a b, a + 1 < dims 0 ∧ b + 1 < dims 1 ∧ ∀ e ∈ iw, ∃ p : Nat × Nat, (p.1 = a ∨ p.1 = a + 1) ∧ (p.2 = b ∨ p.2 = b + 1) ∧
      e.1 = ((p.1 * dims 1 + p.2 : Nat) : Int)) :
    ∀ e ∈ iw, distance (fun i => coords i e.1.toNat) x ≤ h + tolpos := by
  intro e he
  obtain ⟨a, b, ha, hb, hc⟩ := hcell
  obtain ⟨p, p1, p2, p3⟩ := hc e he
  have hnear := mean_near (fun e i => coords i e.toNat) (fun i => coords i e.1.toNat) h iw w0 w1 (by
    intro e' he'
    obtain ⟨q, q1, q2, q3⟩ := hc e' he'
    rw [q3, p3, Int.toNat_natCast, Int.toNat_natCast]
    exact hh a b ha hb q p q1 q2 p1 p2)
  refine (distance_triangle _ (fun i => (iw.map fun e => e.2 * coords i e.1.toNat).sum) _).trans ?_
  rw [distance_comm]
  exact add_le_add hnear w2.le

/-- **C100** (continuous fields) If the field changes by at most `L` times the distance and the corners of each source cell are within `h` of
each other, the error at every destination node with weights is at most `L (h + tolpos)`. -/
theorem C100_lipschitz (g : Gels ℝ) (hg : KeepsSizes g) (nitermax : Int) (tolpos : ℝ) (dims : Fin 2 → Nat)
    (hd : ∀ i, 2 ≤ dims i ∧ dims i ≤ 2 ^ 30) (per : Fin 2 → Int) (coords : Fin 2 → Nat → ℝ) (dd : Fin 2 → Nat)
    (dc : Fin 2 → Nat → ℝ) (h : ℝ) (hh : CellsWithin dims coords h) (φ : (Fin 2 → ℝ) → ℝ) (L : ℝ) (hL : 0 ≤ L)
    (hφ : ∀ x y, |φ x - φ y| ≤ L * distance x y) (src dst : List ℝ) (hsrc : src.length = dims 0 * dims 1)
    (hfield : ∀ m < dims 0 * dims 1, src[m]? = some (φ fun i => coords i m)) (hdst : dst.length = dd 0 * dd 1) :
    ∃ o d, (((new nitermax tolpos).setSrcGrid dims per coords).setDstGrid dd dc).computeWeights g = .ok o ∧ o.apply src dst = .ok d ∧
      ∀ k iw, (k, iw) ∈ o.weights → ∃ v, d[k]? = some v ∧ |v - φ fun i => dc i k| ≤ L * (h + tolpos) := by
  obtain ⟨o, d, ho, h1, h2⟩ := entry_value g hg nitermax tolpos dims hd per coords dd dc φ src dst hsrc hfield hdst
  refine ⟨o, d, ho, h1, ?_⟩
  intro k iw hk
  obtain ⟨_, w0, w1, w2, hv, hcell⟩ := h2 k iw hk
  refine ⟨_, hv, ?_⟩
  have hnear := corner_near dims coords h tolpos hh _ iw w0 w1 w2 hcell
  have hm := mean_value (fun e i => coords i e.toNat) (fun e => φ fun i => coords i e.toNat) (φ fun i => dc i k) (L * (h + tolpos)) 0
    (fun i => dc i k) iw w0 w1 (by
      intro e he
      simp only [Pi.zero_apply, zero_mul, Finset.sum_const_zero, sub_zero]
      exact (hφ _ _).trans (mul_le_mul_of_nonneg_left (hnear e he) hL))
  simpa using hm

/-- **C100** (smooth fields) If the field is, near each destination node, within `M` times the square of the distance of a linear
function of slope `L` at most, the error at every destination node with weights is at most `L tolpos + M (h + tolpos)²`: second
order in the size of the cells. -/
theorem C100_smooth (g : Gels ℝ) (hg : KeepsSizes g) (nitermax : Int) (tolpos : ℝ) (dims : Fin 2 → Nat)
    (hd : ∀ i, 2 ≤ dims i ∧ dims i ≤ 2 ^ 30) (per : Fin 2 → Int) (coords : Fin 2 → Nat → ℝ) (dd : Fin 2 → Nat)
    (dc : Fin 2 → Nat → ℝ) (h : ℝ) (hh : CellsWithin dims coords h) (φ : (Fin 2 → ℝ) → ℝ) (L M : ℝ) (hM : 0 ≤ M)
    (hφ : ∀ k < dd 0 * dd 1, SmoothAt φ (fun i => dc i k) L M) (src dst : List ℝ) (hsrc : src.length = dims 0 * dims 1)
    (hfield : ∀ m < dims 0 * dims 1, src[m]? = some (φ fun i => coords i m)) (hdst : dst.length = dd 0 * dd 1) :
    ∃ o d, (((new nitermax tolpos).setSrcGrid dims per coords).setDstGrid dd dc).computeWeights g = .ok o ∧ o.apply src dst = .ok d ∧
      ∀ k iw, (k, iw) ∈ o.weights → ∃ v, d[k]? = some v ∧ |v - φ fun i => dc i k| ≤ L * tolpos + M * (h + tolpos) ^ 2 := by
  obtain ⟨o, d, ho, h1, h2⟩ := entry_value g hg nitermax tolpos dims hd per coords dd dc φ src dst hsrc hfield hdst
  refine ⟨o, d, ho, h1, ?_⟩
  intro k iw hk
  obtain ⟨hkd, w0, w1, w2, hv, hcell⟩ := h2 k iw hk
  refine ⟨_, hv, ?_⟩
  have hnear := corner_near dims coords h tolpos hh _ iw w0 w1 w2 hcell
  obtain ⟨G, hG, hq⟩ := hφ k hkd
  have hm := mean_value (fun e i => coords i e.toNat) (fun e => φ fun i => coords i e.toNat) (φ fun i => dc i k) (M * (h + tolpos) ^ 2) G
    (fun i => dc i k) iw w0 w1 (by
      intro e he
      refine (hq _).trans (mul_le_mul_of_nonneg_left ?_ hM)
      exact pow_le_pow_left₀ (Real.sqrt_nonneg _) (hnear e he) 2)
  have hc := cauchy G (fun i => (iw.map fun e => e.2 * coords i e.1.toNat).sum - dc i k)
  have w2' : Real.sqrt (∑ i, ((iw.map fun e => e.2 * coords i e.1.toNat).sum - dc i k) ^ 2) ≤ tolpos := w2.le
  have hb : |∑ i, G i * ((iw.map fun e => e.2 * coords i e.1.toNat).sum - dc i k)| ≤ L * tolpos :=
    hc.trans (mul_le_mul hG w2' (Real.sqrt_nonneg _) ((Real.sqrt_nonneg _).trans hG))
  have := abs_le.1 hm
  have := abs_le.1 hb
  rw [abs_le]
  constructor <;> linarith

/-! ### Examples -/

/-- The corners of the cells of the turned grid of `Props.Stretched` are within 60 of each other. -/
example : CellsWithin ![3, 2] turnedCoords 60 := by
  intro a b ha hb p q p1 p2 q1 q2
  have ha : a + 1 < 3 := ha
  have hb : b + 1 < 2 := hb
  have ha' : a = 0 ∨ a = 1 := by omega
  have hb' : b = 0 := by omega
  subst hb'
  unfold distance
  refine Real.sqrt_le_iff.2 ⟨by norm_num, ?_⟩
  rw [Fin.sum_univ_two]
  obtain ⟨px, py⟩ := p
  obtain ⟨qx, qy⟩ := q
  dsimp only at p1 p2 q1 q2
  rcases ha' with rfl | rfl <;> rcases p1 with rfl | rfl <;> rcases p2 with rfl | rfl <;> rcases q1 with rfl | rfl <;>
    rcases q2 with rfl | rfl <;> norm_num [turnedCoords, turnedX]

/-- The field `x²` is smooth. -/
example (x : Fin 2 → ℝ) : SmoothAt (fun y => y 0 ^ 2) x (2 * |x 0|) 1 := by
  refine ⟨![2 * x 0, 0], ?_, ?_⟩
  · rw [Fin.sum_univ_two]
    simp only [Matrix.cons_val_zero, Matrix.cons_val_one]
    refine Real.sqrt_le_iff.2 ⟨by positivity, ?_⟩
    rw [mul_pow, mul_pow, sq_abs]; nlinarith
  · intro y
    unfold distance
    rw [Real.sq_sqrt (Finset.sum_nonneg fun i _ => sq_nonneg _), Fin.sum_univ_two, Fin.sum_univ_two]
    simp only [Matrix.cons_val_zero, Matrix.cons_val_one]
    have : y 0 ^ 2 - x 0 ^ 2 - (2 * x 0 * (y 0 - x 0) + 0 * (y 1 - x 1)) = (y 0 - x 0) ^ 2 := by ring
    rw [this, abs_of_nonneg (sq_nonneg _)]
    nlinarith [sq_nonneg (y 1 - x 1)]

end Sg.Props
