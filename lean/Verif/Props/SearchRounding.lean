import Verif.Props.InterpRounding
import Verif.Props.NodeRounding
import Mathlib.Analysis.InnerProductSpace.PiL2
/-
Property C154: the index search in rounded arithmetic.
-/
namespace Sg.Props
open Sg Sg.FindPoint Sg.LinearSolve Sg.Spec Sg.NodeInterp

variable {rnd : ℝ → ℝ} {n : Nat}

/-! ### Distances -/

/-- Euclidean distance. -/
noncomputable def gap (x y : Fin n → ℝ) : ℝ := Real.sqrt (∑ i, (x i - y i) ^ 2)

theorem gap_dist (x y : Fin n → ℝ) : gap x y = dist (WithLp.toLp 2 x : EuclideanSpace ℝ (Fin n)) (WithLp.toLp 2 y) := by
  rw [EuclideanSpace.dist_eq]
  unfold gap
  congr 1
  refine Finset.sum_congr rfl fun i _ => ?_
  rw [Real.dist_eq, sq_abs]

theorem gap_triangle (x y z : Fin n → ℝ) : gap x z ≤ gap x y + gap y z := by
  rw [gap_dist, gap_dist, gap_dist]; exact dist_triangle _ _ _

theorem gap_comm (x y : Fin n → ℝ) : gap x y = gap y x := by rw [gap_dist, gap_dist, dist_comm]

theorem gap_nonneg (x y : Fin n → ℝ) : 0 ≤ gap x y := Real.sqrt_nonneg _

theorem gap_le (x y : Fin n → ℝ) (δ : ℝ) (hδ : 0 ≤ δ) (h : ∀ i, |x i - y i| ≤ δ) : gap x y ≤ Real.sqrt n * δ := by
  unfold gap
  rw [Real.sqrt_le_iff]
  refine ⟨by positivity, ?_⟩
  rw [mul_pow, Real.sq_sqrt (Nat.cast_nonneg _)]
  calc ∑ i, (x i - y i) ^ 2 ≤ ∑ _i : Fin n, δ ^ 2 := Finset.sum_le_sum fun i _ => by
        rw [← sq_abs]; exact pow_le_pow_left₀ (abs_nonneg _) (h i) 2
    _ = n * δ ^ 2 := by rw [Finset.sum_const, Finset.card_univ, Fintype.card_fin, nsmul_eq_mul]

/-! ### The computed error -/

theorem rnd_lower {u : ℝ} (hr : Rounds rnd u 0) {x : ℝ} (hx : 0 ≤ x) : (1 - u) * x ≤ rnd x := by
  have := hr.err x
  rw [add_zero, abs_of_nonneg hx] at this
  have := (abs_le.mp this).1
  linarith

theorem rnd_upper {u : ℝ} (hr : Rounds rnd u 0) {x : ℝ} (hx : 0 ≤ x) : rnd x ≤ (1 + u) * x := by
  have := hr.err x
  rw [add_zero, abs_of_nonneg hx] at this
  have := (abs_le.mp this).2
  linarith

theorem rnd_abs {u : ℝ} (hr : Rounds rnd u 0) (x : ℝ) : (1 - u) * |x| ≤ |rnd x| ∧ |rnd x| ≤ (1 + u) * |x| := by
  have h := hr.err x
  rw [add_zero] at h
  have h1 := abs_sub_abs_le_abs_sub x (rnd x)
  have h2 := abs_sub_abs_le_abs_sub (rnd x) x
  rw [abs_sub_comm] at h1
  constructor <;> linarith

/-- Rounded sum of squares. -/
theorem sum_fl {u : ℝ} (hr : Rounds rnd u 0) (hu : u ≤ 1) (f : Fin n → Fl rnd) (hf : ∀ i, 0 ≤ (f i).val) : ∀ (l : List (Fin n)) (r : Fl rnd), 0 ≤ r.val →
    0 ≤ (l.foldl (fun res i => res + f i) r).val ∧
    (1 - u) ^ l.length * (r.val + (l.map fun i => (f i).val).sum) ≤ (l.foldl (fun res i => res + f i) r).val ∧
      (l.foldl (fun res i => res + f i) r).val ≤ (1 + u) ^ l.length * (r.val + (l.map fun i => (f i).val).sum)
  | [], r, h => by simpa using h
  | a :: l, r, h => by
    have h0 : 0 ≤ r.val + (f a).val := add_nonneg h (hf a)
    have l1 := rnd_lower hr h0
    have l2 := rnd_upper hr h0
    have h1u : 0 ≤ 1 - u := by linarith
    have hu0 := hr.rel
    have hr' : 0 ≤ (r + f a).val := (mul_nonneg h1u h0).trans l1
    obtain ⟨i0, i1, i2⟩ := sum_fl hr hu f hf l (r + f a) hr'
    have hs : 0 ≤ (l.map fun i => (f i).val).sum := List.sum_nonneg (by
      intro x hx
      obtain ⟨i, -, rfl⟩ := List.mem_map.1 hx
      exact hf i)
    rw [List.foldl_cons, List.length_cons, List.map_cons, List.sum_cons]
    refine ⟨i0, ?_, ?_⟩
    · refine le_trans ?_ i1
      rw [pow_succ, mul_assoc]
      refine mul_le_mul_of_nonneg_left ?_ (pow_nonneg h1u _)
      show (1 - u) * _ ≤ rnd (r.val + (f a).val) + _
      have : (1 - u) * (l.map fun i => (f i).val).sum ≤ (l.map fun i => (f i).val).sum := mul_le_of_le_one_left hs (by linarith)
      linarith
    · refine i2.trans ?_
      rw [pow_succ, mul_assoc]
      refine mul_le_mul_of_nonneg_left ?_ (pow_nonneg (by linarith) _)
      show rnd (r.val + (f a).val) + _ ≤ (1 + u) * _
      have : (l.map fun i => (f i).val).sum ≤ (1 + u) * (l.map fun i => (f i).val).sum := le_mul_of_one_le_left hs (by linarith)
      linarith

/-- The computed distance. -/
noncomputable def flDist (p t : Fin n → Fl rnd) : Fl rnd :=
  FOps.sqrt ((List.finRange n).foldl (fun res i => let dp := p i - t i; res + dp * dp) (0 : Fl rnd))

theorem flDist_bounds {u : ℝ} (hr : Rounds rnd u 0) (hu : u ≤ 1) (p t : Fin n → Fl rnd) :
    (1 - u) ^ (n + 4) * gap (vals p) (vals t) ≤ (flDist p t).val ∧ (flDist p t).val ≤ (1 + u) ^ (n + 4) * gap (vals p) (vals t) := by
  have hu0 := hr.rel
  have h1u : 0 ≤ 1 - u := by linarith
  have h1u' : 1 - u ≤ 1 := by linarith
  have h2u : 1 ≤ 1 + u := by linarith
  have hterm : ∀ i, (1 - u) ^ 3 * ((p i).val - (t i).val) ^ 2 ≤ ((p i - t i) * (p i - t i)).val ∧
      ((p i - t i) * (p i - t i)).val ≤ (1 + u) ^ 3 * ((p i).val - (t i).val) ^ 2 := by
    intro i
    have e : (p i - t i).val = rnd ((p i).val - (t i).val) := rfl
    have h0 : 0 ≤ (p i - t i).val * (p i - t i).val := mul_self_nonneg _
    have l1 := rnd_lower hr h0
    have l2 := rnd_upper hr h0
    obtain ⟨a1, a2⟩ := rnd_abs hr ((p i).val - (t i).val)
    rw [← e] at a1 a2
    have s1 : ((1 - u) * |(p i).val - (t i).val|) ^ 2 ≤ |(p i - t i).val| ^ 2 := pow_le_pow_left₀ (by positivity) a1 2
    have s2 : |(p i - t i).val| ^ 2 ≤ ((1 + u) * |(p i).val - (t i).val|) ^ 2 := pow_le_pow_left₀ (abs_nonneg _) a2 2
    rw [sq_abs, mul_pow, sq_abs] at s1 s2
    rw [pow_two (p i - t i).val] at s1 s2
    constructor
    · refine le_trans ?_ l1
      calc (1 - u) ^ 3 * ((p i).val - (t i).val) ^ 2 = (1 - u) * ((1 - u) ^ 2 * ((p i).val - (t i).val) ^ 2) := by ring
        _ ≤ _ := mul_le_mul_of_nonneg_left s1 h1u
    · refine l2.trans ?_
      calc (1 + u) * ((p i - t i).val * (p i - t i).val) ≤ (1 + u) * ((1 + u) ^ 2 * ((p i).val - (t i).val) ^ 2) :=
            mul_le_mul_of_nonneg_left s2 (by linarith)
        _ = _ := by ring
  have hpos : ∀ i, 0 ≤ ((p i - t i) * (p i - t i)).val := fun i => le_trans (mul_nonneg (pow_nonneg h1u _) (sq_nonneg _)) (hterm i).1
  obtain ⟨f0, f1, f2⟩ := sum_fl hr hu (fun i => (p i - t i) * (p i - t i)) hpos (List.finRange n) 0 (le_refl (0 : ℝ))
  rw [List.length_finRange, Fl.zero_val, zero_add, ← List.ofFn_eq_map, List.sum_ofFn] at f1 f2
  set S := ((List.finRange n).foldl (fun res i => res + (p i - t i) * (p i - t i)) (0 : Fl rnd)).val with hS
  set D2 := ∑ i, ((p i).val - (t i).val) ^ 2 with hD2
  have hD0 : 0 ≤ D2 := Finset.sum_nonneg fun i _ => sq_nonneg _
  have g1 : (1 - u) ^ (n + 3) * D2 ≤ S := by
    refine le_trans ?_ f1
    rw [pow_add, mul_assoc, hD2, Finset.mul_sum]
    exact mul_le_mul_of_nonneg_left (Finset.sum_le_sum fun i _ => (hterm i).1) (pow_nonneg h1u _)
  have g2 : S ≤ (1 + u) ^ (n + 3) * D2 := by
    refine f2.trans ?_
    have e : (1 + u) ^ (n + 3) * D2 = (1 + u) ^ n * ∑ i, (1 + u) ^ 3 * ((p i).val - (t i).val) ^ 2 := by
      rw [pow_add, mul_assoc, hD2, Finset.mul_sum]
    rw [e]
    exact mul_le_mul_of_nonneg_left (Finset.sum_le_sum fun i _ => (hterm i).2) (show (0 : ℝ) ≤ (1 + u) ^ n by positivity)
  have hgap : gap (vals p) (vals t) = Real.sqrt D2 := rfl
  have q1 : (1 - u) ^ (n + 3) * Real.sqrt D2 ≤ Real.sqrt S := by
    refine Real.le_sqrt_of_sq_le ?_
    rw [mul_pow, Real.sq_sqrt hD0]
    refine le_trans (mul_le_mul_of_nonneg_right ?_ hD0) g1
    rw [← pow_mul]
    exact pow_le_pow_of_le_one h1u h1u' (by omega)
  have q2 : Real.sqrt S ≤ (1 + u) ^ (n + 3) * Real.sqrt D2 := by
    rw [Real.sqrt_le_iff]
    refine ⟨by positivity, g2.trans ?_⟩
    rw [mul_pow, Real.sq_sqrt hD0]
    refine mul_le_mul_of_nonneg_right ?_ hD0
    rw [← pow_mul]
    exact pow_le_pow_right₀ h2u (by omega)
  have e : (flDist p t).val = rnd (Real.sqrt S) := rfl
  rw [e, hgap]
  have l1 := rnd_lower hr (Real.sqrt_nonneg S)
  have l2 := rnd_upper hr (Real.sqrt_nonneg S)
  constructor
  · refine le_trans ?_ l1
    rw [pow_succ (1 - u) (n + 3), mul_comm ((1 - u) ^ (n + 3)), mul_assoc]
    exact mul_le_mul_of_nonneg_left q1 h1u
  · refine l2.trans ?_
    rw [pow_succ (1 + u) (n + 3), mul_comm ((1 + u) ^ (n + 3)), mul_assoc]
    exact mul_le_mul_of_nonneg_left q2 (by linarith)

/-! ### Histories -/

/-- All starting positions given to `reset` are in the grid, and no new grid is set. -/
def FlGridCalls (dims : Fin n → Nat) (cs : List (Call (Fl rnd) n)) : Prop :=
  ∀ c ∈ cs, (∃ d t, c = .reset d t ∧ InGrid dims (vals d)) ∨ c = .next

theorem flRun {N : Nat} (hN : KeepsInts rnd N) (g : Gels (Fl rnd)) (hg : FindPoint.KeepsSizes g) (hn : 1 ≤ n) : ∀ (cs : List (Call (Fl rnd) n)) (s0 : Finder (Fl rnd) n),
    GridFl N s0 → InGrid s0.dims (vals s0.dIndices) → FlGridCalls s0.dims cs →
    ∃ s, runCalls g s0 cs = .ok s ∧ GridFl N s ∧ SameGrid s0 s ∧ InGrid s0.dims (vals s.dIndices)
  | [], s0, h, hi, _ => ⟨s0, rfl, h, sameGrid_refl _, hi⟩
  | c :: cs, s0, h, hi, hcs => by
    have hrest : FlGridCalls s0.dims cs := fun x hx => hcs x (List.mem_cons_of_mem _ hx)
    rcases hcs c (List.mem_cons_self ..) with ⟨d, t, rfl, hd⟩ | rfl
    · obtain ⟨s, e, h1, h2, h3⟩ := flRun hN g hg hn cs (s0.reset d t) ⟨ready_reset _ _ _ h.ready, h.dims, h.fit, h.coords⟩ hd hrest
      exact ⟨s, e, h1, ⟨h2.coords, h2.bounds, h2.per, h2.dims, h2.nitermax, h2.tolpos⟩, h3⟩
    · obtain ⟨c1, s1, e1, h1, h2⟩ := next_fl hN g hg hn s0 h hi
      obtain ⟨q, -⟩ := sameGrid_next g s0 _ _ e1
      obtain ⟨s, e, h3, h4, h5⟩ := flRun hN g hg hn cs s1 h1 h2 (by rw [q.dims]; exact hrest)
      refine ⟨s, ?_, h3, sameGrid_trans q h4, by rw [← q.dims]; exact h5⟩
      unfold runCalls Call.exec
      rw [e1]
      exact e

/-- A finder on a grid after searches from starts in the grid. -/
structure FlSearched (N : Nat) (g : Gels (Fl rnd)) (nitermax : Int) (tolpos : Fl rnd) (dims : Fin n → Nat) (per : Fin n → Int) (coords : Fin n → Nat → Fl rnd)
    (s : Finder (Fl rnd) n) : Prop where
  run : ∃ d t cs, InGrid dims (vals d) ∧ FlGridCalls dims cs ∧ runCalls g (((Finder.new nitermax tolpos).setGrid dims per coords).reset d t) cs = .ok s

theorem flGrid_set {N : Nat} (nitermax : Int) (tolpos : Fl rnd) (dims : Fin n → Nat) (hd : GoodDims dims) (hfit : ∀ i, dims i ≤ N) (per : Fin n → Int)
    (coords : Fin n → Nat → Fl rnd) (d t : Fin n → Fl rnd) : GridFl N (((Finder.new nitermax tolpos).setGrid dims per coords).reset d t) :=
  ⟨ready_reset _ _ _ (ready_setGrid _ _ _ _), hd, hfit, fun i => by simp [Finder.setGrid, Finder.reset]⟩

theorem flSearched_inv {N : Nat} (hN : KeepsInts rnd N) (g : Gels (Fl rnd)) (hg : FindPoint.KeepsSizes g) (hn : 1 ≤ n) (nitermax : Int) (tolpos : Fl rnd)
    (dims : Fin n → Nat) (hd : GoodDims dims) (hfit : ∀ i, dims i ≤ N) (per : Fin n → Int) (coords : Fin n → Nat → Fl rnd) (s : Finder (Fl rnd) n)
    (h : FlSearched N g nitermax tolpos dims per coords s) :
    GridFl N s ∧ SameGrid ((Finder.new nitermax tolpos).setGrid dims per coords) s ∧ InGrid dims (vals s.dIndices) := by
  obtain ⟨d, t, cs, hin, hcs, e⟩ := h.run
  obtain ⟨s', e', h1, h2, h3⟩ := flRun hN g hg hn cs _ (flGrid_set nitermax tolpos dims hd hfit per coords d t) hin hcs
  rw [e, Except.ok.injEq] at e'
  subst e'
  exact ⟨h1, ⟨h2.coords, h2.bounds, h2.per, h2.dims, h2.nitermax, h2.tolpos⟩, h3⟩

/-- **C154** In every rounded arithmetic that keeps the order and the integers up to the numbers of nodes, with any linear solver: no search from starts in the grid has
undefined behaviour, however many calls are made; the position stays in the grid. -/
theorem C154_safe {N : Nat} (hN : KeepsInts rnd N) (g : Gels (Fl rnd)) (hg : FindPoint.KeepsSizes g) (hn : 1 ≤ n) (nitermax : Int) (tolpos : Fl rnd)
    (dims : Fin n → Nat) (hd : GoodDims dims) (hfit : ∀ i, dims i ≤ N) (per : Fin n → Int) (coords : Fin n → Nat → Fl rnd)
    (d t : Fin n → Fl rnd) (hin : InGrid dims (vals d)) (cs : List (Call (Fl rnd) n)) (hcs : FlGridCalls dims cs) :
    ∃ s, runCalls g (((Finder.new nitermax tolpos).setGrid dims per coords).reset d t) cs = .ok s ∧
      (∀ i, 0 ≤ (s.dIndices i).val ∧ (s.dIndices i).val ≤ (dims i : ℝ) - 1) ∧ (∃ e, s.getError = .ok e) ∧
      ∃ c s', s.next g = .ok (c, s') ∧ c ∈ ([0, 1, -1, -2, -3] : List Int) := by
  obtain ⟨s, e, h1, h2, h3⟩ := flRun hN g hg hn cs _ (flGrid_set nitermax tolpos dims hd hfit per coords d t) hin hcs
  have hin' : InGrid s.dims (vals s.dIndices) := by rw [h2.dims]; exact h3
  obtain ⟨c, s', e1, -⟩ := next_fl hN g hg hn s h1 hin'
  have hc := (C32_status_code g s s' c e1).1
  exact ⟨s, e, h3, getError_fl s h1.dims h1.coords hin', c, s', e1, by simpa using hc⟩

/-- Exact position in space of an index position: multilinear interpolation of the coordinates, without rounding. -/
def ExactPlace (dims : Fin n → Nat) (coords : Fin n → Nat → Fl rnd) (d : Fin n → ℝ) (w : Fin n → ℝ) : Prop :=
  ∀ i, interp dims d ((List.range (∏ k, dims k)).map fun m => (coords i m).val) = .ok (w i)

/-- Rounding error of an interpolated coordinate, for coordinates up to `M`. -/
noncomputable def placeError (n : Nat) (u M : ℝ) : ℝ := Real.sqrt n * (((1 + u) ^ (2 ^ n + 1 + 3 * n) - 1) * M)

theorem error_place {u : ℝ} (hr : Rounds rnd u 0) (hu : u ≤ 1) {N : Nat} (hN : KeepsInts rnd N) (s : Finder (Fl rnd) n) (h : GridFl N s)
    (hin : InGrid s.dims (vals s.dIndices)) (dims : Fin n → Nat) (coords : Fin n → Nat → Fl rnd) (hdims : s.dims = dims)
    (hco : ∀ i, s.coords i = (List.range (∏ k, dims k)).map (coords i)) (M : ℝ) (hM0 : 0 ≤ M) (hM : ∀ i, ∀ m < ∏ k, dims k, |(coords i m).val| ≤ M) :
    ∃ e w, s.getError = .ok e ∧ ExactPlace dims coords (vals s.dIndices) w ∧
      (1 - u) ^ (n + 4) * (gap w (vals s.targetPoint) - placeError n u M) ≤ e.val ∧
      e.val ≤ (1 + u) ^ (n + 4) * (gap w (vals s.targetPoint) + placeError n u M) := by
  subst hdims
  have hu0 := hr.rel
  have key : ∀ i, ∃ v w, interp s.dims s.dIndices (s.coords i) = .ok v ∧
      interp s.dims (vals s.dIndices) ((List.range (∏ k, s.dims k)).map fun m => (coords i m).val) = .ok w ∧
      |v.val - w| ≤ ((1 + u) ^ (2 ^ n + 1 + 3 * n) - 1) * M := by
    intro i
    obtain ⟨v, w, hv, hw, he⟩ := C107_interp hr hN s.dims h.dims h.fit s.dIndices hin (s.coords i) (h.coords i) M
      (fun m v hm hv => by
        rw [hco, List.getElem?_map, Option.map_eq_some_iff] at hv
        obtain ⟨y, hy, rfl⟩ := hv
        obtain ⟨hlt, rfl⟩ := List.getElem?_eq_some_iff.mp hy
        rw [List.length_range] at hlt
        rw [List.getElem_range]
        exact hM i _ hlt)
    refine ⟨v, w, hv, ?_, he⟩
    rw [hco, List.map_map] at hw
    exact hw
  choose v w hv hw he using key
  have hpos : s.getPosition = .ok v := forAxes_ok _ v hv
  refine ⟨flDist v s.targetPoint, w, ?_, hw, ?_⟩
  · unfold Finder.getError
    rw [hpos]
    rfl
  · have hδ : 0 ≤ ((1 + u) ^ (2 ^ n + 1 + 3 * n) - 1) * M :=
      mul_nonneg (sub_nonneg.2 (one_le_pow₀ (by linarith))) hM0
    have hg := gap_le (vals v) w _ hδ he
    obtain ⟨b1, b2⟩ := flDist_bounds hr hu v s.targetPoint
    have t1 := gap_triangle w (vals v) (vals s.targetPoint)
    have t2 := gap_triangle (vals v) w (vals s.targetPoint)
    rw [gap_comm w (vals v)] at t1
    have e : placeError n u M = Real.sqrt n * (((1 + u) ^ (2 ^ n + 1 + 3 * n) - 1) * M) := rfl
    constructor
    · refine le_trans (mul_le_mul_of_nonneg_left ?_ (pow_nonneg (by linarith) _)) b1
      linarith
    · refine b2.trans (mul_le_mul_of_nonneg_left ?_ (by positivity))
      linarith

/-- **C154** The error reported by `getError` after any searches is the distance of the target from the exact place of the index position, up to rounding. -/
theorem C154_error {u : ℝ} (hr : Rounds rnd u 0) (hu : u ≤ 1) {N : Nat} (hN : KeepsInts rnd N) (g : Gels (Fl rnd)) (hg : FindPoint.KeepsSizes g) (hn : 1 ≤ n)
    (nitermax : Int) (tolpos : Fl rnd) (dims : Fin n → Nat) (hd : GoodDims dims) (hfit : ∀ i, dims i ≤ N) (per : Fin n → Int) (coords : Fin n → Nat → Fl rnd)
    (M : ℝ) (hM0 : 0 ≤ M) (hM : ∀ i, ∀ m < ∏ k, dims k, |(coords i m).val| ≤ M) (s : Finder (Fl rnd) n) (h : FlSearched N g nitermax tolpos dims per coords s) :
    ∃ e w, s.getError = .ok e ∧ ExactPlace dims coords (vals s.dIndices) w ∧
      (1 - u) ^ (n + 4) * (gap w (vals s.targetPoint) - placeError n u M) ≤ e.val ∧
      e.val ≤ (1 + u) ^ (n + 4) * (gap w (vals s.targetPoint) + placeError n u M) := by
  obtain ⟨h1, h2, h3⟩ := flSearched_inv hN g hg hn nitermax tolpos dims hd hfit per coords s h
  exact error_place hr hu hN s h1 (by rw [h2.dims]; exact h3) dims coords h2.dims (fun i => by rw [h2.coords]; rfl) M hM0 hM

/-- **C154** What the codes mean.  1: the exact place of the new position is within the tolerance of the target, up to rounding.  0: it is not, up to rounding. -/
theorem C154_codes {u : ℝ} (hr : Rounds rnd u 0) (hu : u < 1) {N : Nat} (hN : KeepsInts rnd N) (g : Gels (Fl rnd)) (hg : FindPoint.KeepsSizes g) (hn : 1 ≤ n)
    (nitermax : Int) (tolpos : Fl rnd) (dims : Fin n → Nat) (hd : GoodDims dims) (hfit : ∀ i, dims i ≤ N) (per : Fin n → Int) (coords : Fin n → Nat → Fl rnd)
    (M : ℝ) (hM0 : 0 ≤ M) (hM : ∀ i, ∀ m < ∏ k, dims k, |(coords i m).val| ≤ M) (s : Finder (Fl rnd) n) (h : FlSearched N g nitermax tolpos dims per coords s)
    (c : Int) (s' : Finder (Fl rnd) n) (hnext : s.next g = .ok (c, s')) :
    ∃ w, ExactPlace dims coords (vals s'.dIndices) w ∧
      (c = 1 → gap w (vals s.targetPoint) < tolpos.val / (1 - u) ^ (n + 4) + placeError n u M) ∧
      (c = 0 → tolpos.val / (1 + u) ^ (n + 4) - placeError n u M ≤ gap w (vals s.targetPoint)) := by
  obtain ⟨h1, h2, h3⟩ := flSearched_inv hN g hg hn nitermax tolpos dims hd hfit per coords s h
  obtain ⟨c', s1, e1, hg1, hin1⟩ := next_fl hN g hg hn s h1 (by rw [h2.dims]; exact h3)
  rw [hnext, Except.ok.injEq, Prod.mk.injEq] at e1
  obtain ⟨rfl, rfl⟩ := e1
  obtain ⟨q, ht⟩ := sameGrid_next g s _ _ hnext
  have q2 := sameGrid_trans h2 q
  obtain ⟨e, w, he, hw, b1, b2⟩ := error_place hr hu.le hN s' hg1 hin1 dims coords q2.dims (fun i => by rw [q2.coords]; rfl) M hM0 hM
  have htol : s.tolpos = tolpos := h2.tolpos
  obtain ⟨-, -, c1, c0, -⟩ := C32_status_code g s s' c hnext
  rw [htol] at c1 c0
  rw [ht] at b1 b2
  have hu0 := hr.rel
  refine ⟨w, hw, fun hc => ?_, fun hc => ?_⟩
  · obtain ⟨e', he', hlt⟩ := c1 hc
    rw [he, Except.ok.injEq] at he'
    subst he'
    have hlt' : e.val < tolpos.val := hlt
    have hp : 0 < (1 - u) ^ (n + 4) := pow_pos (by linarith) _
    have : gap w (vals s.targetPoint) - placeError n u M < tolpos.val / (1 - u) ^ (n + 4) := by
      rw [lt_div_iff₀ hp, mul_comm]
      exact b1.trans_lt hlt'
    linarith
  · obtain ⟨⟨e', he', hge⟩, -⟩ := c0 hc
    rw [he, Except.ok.injEq] at he'
    subst he'
    have hge' : tolpos.val ≤ e.val := not_lt.1 hge
    have hp : 0 < (1 + u) ^ (n + 4) := pow_pos (by linarith) _
    have : tolpos.val / (1 + u) ^ (n + 4) ≤ gap w (vals s.targetPoint) + placeError n u M := by
      rw [div_le_iff₀ hp, mul_comm]
      exact hge'.trans b2
    linarith

/-! ### Targets outside -/

theorem foldMin_spec (c : Nat → Fl rnd) : ∀ (l : List Nat) (m : Fl rnd), let r := l.foldl (fun m j => if m < c j then m else c j) m
    r.val ≤ m.val ∧ (∀ j ∈ l, r.val ≤ (c j).val) ∧ (r = m ∨ ∃ j ∈ l, r = c j)
  | [], m => by simp
  | a :: l, m => by
    obtain ⟨h1, h2, h3⟩ := foldMin_spec c l (if m < c a then m else c a)
    dsimp only at h1 h2 h3 ⊢
    rw [List.foldl_cons]
    by_cases h : m < c a
    · have h' : m.val < (c a).val := h
      rw [if_pos h] at h1 h2 h3 ⊢
      refine ⟨h1, ?_, ?_⟩
      · intro j hj
        rcases List.mem_cons.1 hj with rfl | hj
        · linarith
        · exact h2 j hj
      · rcases h3 with h3 | ⟨j, hj, h3⟩
        · exact .inl h3
        · exact .inr ⟨j, List.mem_cons_of_mem _ hj, h3⟩
    · have h' : (c a).val ≤ m.val := not_lt.1 h
      rw [if_neg h] at h1 h2 h3 ⊢
      refine ⟨h1.trans h', ?_, ?_⟩
      · intro j hj
        rcases List.mem_cons.1 hj with rfl | hj
        · exact h1
        · exact h2 j hj
      · rcases h3 with h3 | ⟨j, hj, h3⟩
        · exact .inr ⟨a, List.mem_cons_self .., h3⟩
        · exact .inr ⟨j, List.mem_cons_of_mem _ hj, h3⟩

theorem foldMax_spec (c : Nat → Fl rnd) : ∀ (l : List Nat) (m : Fl rnd), let r := l.foldl (fun m j => if c j < m then m else c j) m
    m.val ≤ r.val ∧ (∀ j ∈ l, (c j).val ≤ r.val) ∧ (r = m ∨ ∃ j ∈ l, r = c j)
  | [], m => by simp
  | a :: l, m => by
    obtain ⟨h1, h2, h3⟩ := foldMax_spec c l (if c a < m then m else c a)
    dsimp only at h1 h2 h3 ⊢
    rw [List.foldl_cons]
    by_cases h : c a < m
    · have h' : (c a).val < m.val := h
      rw [if_pos h] at h1 h2 h3 ⊢
      refine ⟨h1, ?_, ?_⟩
      · intro j hj
        rcases List.mem_cons.1 hj with rfl | hj
        · linarith
        · exact h2 j hj
      · rcases h3 with h3 | ⟨j, hj, h3⟩
        · exact .inl h3
        · exact .inr ⟨j, List.mem_cons_of_mem _ hj, h3⟩
    · have h' : m.val ≤ (c a).val := not_lt.1 h
      rw [if_neg h] at h1 h2 h3 ⊢
      refine ⟨h'.trans h1, ?_, ?_⟩
      · intro j hj
        rcases List.mem_cons.1 hj with rfl | hj
        · exact h1
        · exact h2 j hj
      · rcases h3 with h3 | ⟨j, hj, h3⟩
        · exact .inr ⟨a, List.mem_cons_self .., h3⟩
        · exact .inr ⟨j, List.mem_cons_of_mem _ hj, h3⟩

/-- **C154** Code -3: along some axis the target is below all nodes or above all nodes, if the coordinates are numbers of the arithmetic and not larger than its largest
number. -/
theorem C154_outside {N : Nat} (hN : KeepsInts rnd N) (g : Gels (Fl rnd)) (hg : FindPoint.KeepsSizes g) (hn : 1 ≤ n)
    (nitermax : Int) (tolpos : Fl rnd) (dims : Fin n → Nat) (hd : GoodDims dims) (hfit : ∀ i, dims i ≤ N) (per : Fin n → Int) (coords : Fin n → Nat → Fl rnd)
    (hrep : ∀ i, ∀ m < ∏ k, dims k, rnd (coords i m).val = (coords i m).val)
    (hbig : ∀ i, ∀ m < ∏ k, dims k, |(coords i m).val| ≤ (FOps.big : Fl rnd).val) (s : Finder (Fl rnd) n)
    (h : FlSearched N g nitermax tolpos dims per coords s) (s' : Finder (Fl rnd) n) (hnext : s.next g = .ok (-3, s')) :
    ∃ i, (∀ m < ∏ k, dims k, (s.targetPoint i).val < (coords i m).val) ∨ (∀ m < ∏ k, dims k, (coords i m).val < (s.targetPoint i).val) := by
  obtain ⟨h1, h2, h3⟩ := flSearched_inv hN g hg hn nitermax tolpos dims hd hfit per coords s h
  obtain ⟨-, b, i, hb, hi⟩ := (C32_status_code g s s' (-3) hnext).2.2.2.2.2.2 rfl
  have hpos : 0 < ∏ k, dims k := Finset.prod_pos fun k _ => by have := (hd k).1; omega
  have heps : (0 : ℝ) ≤ (FOps.eps100 : Fl rnd).val := hN.nonneg (by positivity)
  rw [h2.bounds] at hb
  simp only [Finder.setGrid, Finder.new, Option.getD, Option.some.injEq] at hb
  refine ⟨i, ?_⟩
  rcases hi with hi | hi
  · left
    obtain ⟨-, m2, m3⟩ := foldMin_spec (coords i) (List.range (∏ k, dims k)) FOps.big
    have hb1 : b.1 i = (List.range (∏ k, dims k)).foldl (fun m j => if m < coords i j then m else coords i j) FOps.big := by rw [← hb]
    rw [← hb1] at m2 m3
    have hr1 : rnd (b.1 i).val = (b.1 i).val := by
      rcases m3 with m3 | ⟨j, hj, m3⟩
      · have e1 := m2 0 (List.mem_range.2 hpos)
        have e2 := (le_abs_self _).trans (hbig i 0 hpos)
        rw [← m3] at e2
        rw [le_antisymm e1 e2]
        exact hrep i 0 hpos
      · rw [m3]; exact hrep i j (List.mem_range.1 hj)
    have hlt : (s.targetPoint i).val < rnd ((b.1 i).val - (FOps.eps100 : Fl rnd).val) := not_le.1 hi
    have hle : rnd ((b.1 i).val - (FOps.eps100 : Fl rnd).val) ≤ rnd (b.1 i).val := hN.mono (by linarith)
    rw [hr1] at hle
    intro m hm
    exact hlt.trans_le (hle.trans (m2 m (List.mem_range.2 hm)))
  · right
    obtain ⟨-, m2, m3⟩ := foldMax_spec (coords i) (List.range (∏ k, dims k)) (-FOps.big)
    have hb1 : b.2 i = (List.range (∏ k, dims k)).foldl (fun m j => if coords i j < m then m else coords i j) (-FOps.big) := by rw [← hb]
    rw [← hb1] at m2 m3
    have hr1 : rnd (b.2 i).val = (b.2 i).val := by
      rcases m3 with m3 | ⟨j, hj, m3⟩
      · have e1 := m2 0 (List.mem_range.2 hpos)
        have e2 := (neg_le_neg (hbig i 0 hpos)).trans (neg_abs_le _)
        have e3 : (b.2 i).val = -(FOps.big : Fl rnd).val := by rw [m3]; rfl
        rw [← e3] at e2
        rw [le_antisymm e2 e1]
        exact hrep i 0 hpos
      · rw [m3]; exact hrep i j (List.mem_range.1 hj)
    have hlt : rnd ((b.2 i).val + (FOps.eps100 : Fl rnd).val) < (s.targetPoint i).val := not_le.1 hi
    have hle : rnd (b.2 i).val ≤ rnd ((b.2 i).val + (FOps.eps100 : Fl rnd).val) := hN.mono (by linarith)
    rw [hr1] at hle
    intro m hm
    exact ((m2 m (List.mem_range.2 hm)).trans hle).trans_lt hlt

/-! ### Double precision -/

/-- **C154** in double precision, two axes: a point reported as found is within the tolerance, up to `2e-15` of its size and of that of the coordinates. -/
theorem C154_double (g : Gels (Fl (nearest 53))) (hg : FindPoint.KeepsSizes g) (nitermax : Int) (tolpos : Fl (nearest 53)) (htol : 0 ≤ tolpos.val)
    (dims : Fin 2 → Nat) (hd : GoodDims dims) (per : Fin 2 → Int) (coords : Fin 2 → Nat → Fl (nearest 53))
    (M : ℝ) (hM0 : 0 ≤ M) (hM : ∀ i, ∀ m < ∏ k, dims k, |(coords i m).val| ≤ M) (s : Finder (Fl (nearest 53)) 2)
    (h : FlSearched (2 ^ 53 - 1) g nitermax tolpos dims per coords s) (s' : Finder (Fl (nearest 53)) 2) (hnext : s.next g = .ok (1, s')) :
    ∃ w, ExactPlace dims coords (vals s'.dIndices) w ∧ gap w (vals s.targetPoint) < tolpos.val + 2 / 10 ^ 15 * tolpos.val + 2 / 10 ^ 15 * M := by
  obtain ⟨w, hw, h1, -⟩ := C154_codes (nearest_rounds 53) (by norm_num) (nearest_ints 53 (by norm_num)) g hg (by norm_num) nitermax tolpos dims hd
    (fun i => (hd i).2.trans (by norm_num)) per coords M hM0 hM s h 1 s' hnext
  refine ⟨w, hw, (h1 rfl).trans_le ?_⟩
  have e1 : tolpos.val / (1 - 2 ^ (-((53 : Nat) : ℤ))) ^ (2 + 4) ≤ tolpos.val + 2 / 10 ^ 15 * tolpos.val := by
    rw [div_le_iff₀ (by norm_num)]
    have : (1 : ℝ) ≤ (1 + 2 / 10 ^ 15) * (1 - 2 ^ (-((53 : Nat) : ℤ))) ^ (2 + 4) := by norm_num
    nlinarith
  have e2 : placeError 2 (2 ^ (-((53 : Nat) : ℤ))) M ≤ 2 / 10 ^ 15 * M := by
    unfold placeError
    rw [← mul_assoc]
    refine mul_le_mul_of_nonneg_right ?_ hM0
    have hs : Real.sqrt ((2 : Nat) : ℝ) ≤ 3 / 2 := by
      rw [Real.sqrt_le_iff]; norm_num
    have hd : ((1 + 2 ^ (-((53 : Nat) : ℤ))) ^ (2 ^ 2 + 1 + 3 * 2) - 1 : ℝ) ≤ 13 / 10 ^ 16 := by norm_num
    have h0 : (0 : ℝ) ≤ (1 + 2 ^ (-((53 : Nat) : ℤ))) ^ (2 ^ 2 + 1 + 3 * 2) - 1 := by norm_num
    calc _ ≤ 3 / 2 * (13 / 10 ^ 16 : ℝ) := mul_le_mul hs hd h0 (by norm_num)
      _ ≤ 2 / 10 ^ 15 := by norm_num
  linarith

/-- The hypotheses of `C154_double`: the unit square, the target at its first node, a step of the search that reports the point as found. -/
example : ∃ s s', FlSearched (2 ^ 53 - 1) stepBack 2 (⟨1⟩ : Fl (nearest 53)) ![2, 2] ![0, 0] squareNodes s ∧ s.next stepBack = .ok (1, s') ∧
    ∃ w, ExactPlace ![2, 2] (squareNodes (rnd := nearest 53)) (vals s'.dIndices) w ∧ gap w (vals s.targetPoint) < 1 + 1 / 10 ^ 14 := by
  have hd : ∀ i : Fin 2, 2 ≤ (![2, 2] : Fin 2 → Nat) i ∧ (![2, 2] : Fin 2 → Nat) i ≤ 2 ^ 30 := by intro i; fin_cases i <;> simp
  have hstart := startIndices_fl (nearest_ints 53 (by norm_num)) (by norm_num : 2 ^ 31 ≤ 2 ^ 53 - 1) ![2, 2] hd
  obtain ⟨s', hs'⟩ := squareStep
  have hS : FlSearched (2 ^ 53 - 1) stepBack 2 (⟨1⟩ : Fl (nearest 53)) ![2, 2] ![0, 0] squareNodes (Finder.reset (((new 2 (⟨1⟩ : Fl (nearest 53))).setSrcGrid ![2, 2] ![0, 0] squareNodes).setDstGrid ![1, 1] (fun _ _ => ⟨0⟩)).finder
    (startIndices (((new 2 (⟨1⟩ : Fl (nearest 53))).setSrcGrid ![2, 2] ![0, 0] squareNodes).setDstGrid ![1, 1] (fun _ _ => ⟨0⟩)).srcCellDims)
    (fun _ => ⟨0⟩)) := ⟨⟨_, fun _ => ⟨0⟩, [], hstart, (by intro c hc; cases hc), rfl⟩⟩
  refine ⟨_, s', hS, hs', ?_⟩
  obtain ⟨w, hw, h⟩ := C154_double stepBack (fun r => ⟨rfl, by simp [stepBack]⟩) 2 ⟨1⟩ zero_le_one ![2, 2] (fun i => ⟨(hd i).1, (hd i).2.trans (by norm_num)⟩)
    ![0, 0] squareNodes 1 zero_le_one (by
      intro i m _
      unfold squareNodes
      split_ifs <;> norm_num) _ hS s' hs'
  refine ⟨w, hw, h.trans_le ?_⟩
  norm_num

/-- The hypotheses of `C154_outside`: a target left of the unit square. -/
example : ∃ s s', FlSearched (2 ^ 53 - 1) stepBack 2 (⟨1⟩ : Fl (nearest 53)) ![2, 2] ![0, 0] squareNodes s ∧ s.next stepBack = .ok (-3, s') := by
  have hN := nearest_ints 53 (by norm_num)
  set s : Finder (Fl (nearest 53)) 2 := ((Finder.new 2 (⟨1⟩ : Fl (nearest 53))).setGrid ![2, 2] ![0, 0] squareNodes).reset (fun _ => ⟨0⟩) (fun _ => ⟨-2⟩) with hs
  have hS : FlSearched (2 ^ 53 - 1) stepBack 2 (⟨1⟩ : Fl (nearest 53)) ![2, 2] ![0, 0] squareNodes s :=
    ⟨⟨fun _ => ⟨0⟩, fun _ => ⟨-2⟩, [], (by intro i; fin_cases i <;> norm_num [vals]), (by intro c hc; cases hc), rfl⟩⟩
  have hd : ∀ i : Fin 2, 2 ≤ (![2, 2] : Fin 2 → Nat) i ∧ (![2, 2] : Fin 2 → Nat) i ≤ 2 ^ 30 := by intro i; fin_cases i <;> simp
  have hgd : GoodDims ![2, 2] := fun i => ⟨(hd i).1, (hd i).2.trans (by norm_num)⟩
  obtain ⟨h1, -, -⟩ := flSearched_inv hN stepBack (fun r => ⟨rfl, by simp [stepBack]⟩) (by norm_num) 2 ⟨1⟩ ![2, 2] hgd
    (fun i => (hd i).2.trans (by norm_num)) ![0, 0] squareNodes s hS
  obtain ⟨-, slvr, hs1, hok⟩ := h1.ready
  have hb : s.bounds = some (fun _ => ⟨0⟩, fun _ => ⟨1⟩) := squareNodes_bounds hN _ _
  have hnext := next_eq stepBack (fun r => ⟨rfl, by simp [stepBack]⟩) (by norm_num) s _ hb slvr hs1 hok
  have hin : s.inside (fun _ => ⟨0⟩, fun _ => ⟨1⟩) = false := by
    unfold Finder.inside
    rw [List.all_eq_false]
    refine ⟨0, List.mem_finRange _, ?_⟩
    rw [Bool.and_eq_true, decide_eq_true_iff, decide_eq_true_iff]
    rintro ⟨h, -⟩
    have h' : nearest 53 (0 - (FOps.eps100 : Fl (nearest 53)).val) ≤ -2 := h
    have e1 : (FOps.eps100 : Fl (nearest 53)).val ≤ 1 := by
      have e := hN.mono (show (100 / 2 ^ 52 : ℝ) ≤ 1 by norm_num)
      have o := hN.int 1 (by norm_num)
      simp only [Nat.cast_one] at o
      rw [o] at e
      exact e
    have e2 : (-1 : ℝ) ≤ nearest 53 (0 - (FOps.eps100 : Fl (nearest 53)).val) := by
      have o := nearest_exact (p := 53) (m := -1) (k := 0) (by norm_num)
      simp only [Int.cast_neg, Int.cast_one, zpow_zero, mul_one] at o
      rw [← o]
      exact hN.mono (by linarith)
    linarith
  rw [hin, if_pos rfl] at hnext
  exact ⟨s, _, hS, hnext⟩

end Sg.Props
