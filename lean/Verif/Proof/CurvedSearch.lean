import Verif.Proof.Curved
import Verif.Props.NodeInterp
namespace Sg.Curved
open Sg Sg.FindPoint Sg.LinearSolve Sg.Spec Sg.Props Sg.Stretched

section
variable {n : Nat} {dims : Fin n → Nat} {coords : Fin n → Nat → ℝ}

/-! ### One call of `next`, any grid -/

/-- The matrix of difference quotients. -/
noncomputable def jac (dims : Fin n → Nat) (coords : Fin n → Nat → ℝ) (x : Fin n → ℝ) : Matrix (Fin n) (Fin n) ℝ :=
  Matrix.of fun i j => (gridPlace dims coords (indsHi dims x j) i - gridPlace dims coords (indsLo x j) i) / (indsHi dims x j j - indsLo x j j)

/-- The change of the indices before they are brought back to the grid. -/
noncomputable def change (dims : Fin n → Nat) (coords : Fin n → Nat → ℝ) (t x : Fin n → ℝ) : Fin n → ℝ :=
  (jac dims coords x)⁻¹.mulVec fun i => gridPlace dims coords t i - gridPlace dims coords x i

/-- The indices after one step. -/
noncomputable def newton (dims : Fin n → Nat) (coords : Fin n → Nat → ℝ) (t x : Fin n → ℝ) : Fin n → ℝ := fun j =>
  truncateIndex 0 (dims j) (x j + change dims coords t x j)

theorem newton_inGrid (hd : GoodDims dims) (t x : Fin n → ℝ) : InGrid dims (newton dims coords t x) := fun j =>
  truncate_inGrid 0 (dims j) (hd j).1 _

theorem change_spec {t x : Fin n → ℝ} (hdet : (jac dims coords x).det ≠ 0) :
    (jac dims coords x).mulVec (change dims coords t x) = fun i => gridPlace dims coords t i - gridPlace dims coords x i := by
  unfold change
  rw [Matrix.mulVec_mulVec, Matrix.mul_nonsing_inv _ (isUnit_iff_ne_zero.2 hdet), Matrix.one_mulVec]

/-- A finder on the grid, searching for the point with indices `t`. -/
structure On (dims : Fin n → Nat) (coords : Fin n → Nat → ℝ) (t : Fin n → ℝ) (s : Finder ℝ n) : Prop where
  ready : Ready s
  shape : s.dims = dims
  nodes : ∀ i, s.coords i = (List.range (∏ k, dims k)).map (coords i)
  bounds : BoundsOK s
  per : ∀ i, s.indexPeriodicity i = 0
  target : s.targetPoint = gridPlace dims coords t

theorem on_interp (hd : GoodDims dims) {t : Fin n → ℝ} {s : Finder ℝ n} (hs : On dims coords t s) (x : Fin n → ℝ) (hx : InGrid dims x) (i : Fin n) :
    interp dims x (s.coords i) = .ok (gridPlace dims coords x i) := by
  refine interp_grid hd coords x hx i (s.coords i) (by rw [hs.nodes]; simp) fun m hm => ?_
  rw [hs.nodes, List.getElem?_map, List.getElem?_range (rowMajor_lt dims m hm), Option.map_some]

theorem on_error (hd : GoodDims dims) {t : Fin n → ℝ} {s : Finder ℝ n} (hs : On dims coords t s) (hx : InGrid dims s.dIndices) :
    s.getError = .ok (distance (gridPlace dims coords s.dIndices) (gridPlace dims coords t)) := by
  have hp : s.getPosition = .ok (gridPlace dims coords s.dIndices) := by
    unfold Finder.getPosition
    refine forAxes_ok _ _ (fun i => ?_)
    rw [hs.shape]
    exact on_interp hd hs _ hx i
  unfold Finder.getError
  rw [hp]
  simp only [bind, Except.bind, pure, Except.pure]
  rw [foldl_sum, zero_add]
  congr 1
  show Real.sqrt _ = Real.sqrt _
  congr 1
  rw [← List.ofFn_eq_map, List.sum_ofFn]
  refine Finset.sum_congr rfl fun i _ => ?_
  rw [hs.target]
  ring

theorem next_grid_old (g : Gels ℝ) (hg : GelsContract g) (hn : 1 ≤ n) (hd : GoodDims dims) (t : Fin n → ℝ) (ht : InGrid dims t)
    (s : Finder ℝ n) (hs : On dims coords t s) (hx : InGrid dims s.dIndices) (hdet : (jac dims coords s.dIndices).det ≠ 0) :
    ∃ s1 : Finder ℝ n, s.next g = .ok (s1.finishStep (distance (gridPlace dims coords (newton dims coords t s.dIndices))
        (gridPlace dims coords t))) ∧ On dims coords t s1 ∧ s1.dIndices = newton dims coords t s.dIndices ∧
      s1.iter = s.iter ∧ s1.errorHistory = s.errorHistory ∧ s1.nitermax = s.nitermax ∧ s1.tolpos = s.tolpos ∧ s1.oldError = s.oldError := by
  have hks : KeepsSizes g := hg.sizes
  obtain ⟨⟨b, hb⟩, slvr, hsl, hok⟩ := hs.ready
  have hlen : ∀ i, (s.coords i).length = ∏ k, dims k := fun i => by rw [hs.nodes]; simp
  have hint := fun x hx i => on_interp hd hs x hx i
  set x := s.dIndices with hxd
  have heps := FOpsLaws.eps_pos (K := ℝ)
  have hin : s.inside b = true := by
    unfold Finder.inside
    rw [List.all_eq_true]
    intro i _
    have hbo := hs.bounds b hb i
    obtain ⟨v, hv, h1, h2⟩ := C37_range dims hd t ht (s.coords i) (hlen i) (b.1 i) (b.2 i) (by
      intro m v _ hv
      exact hbo v (List.mem_of_getElem? hv))
    rw [hint t ht i, Except.ok.injEq] at hv
    simp only [Bool.and_eq_true, decide_eq_true_eq]
    rw [hs.target, hv]
    constructor <;> linarith
  have hj : s.computeJacobianAndRHS = .ok (fun i j => jac dims coords x i j,
      fun i => gridPlace dims coords t i - gridPlace dims coords x i) := by
    unfold Finder.computeJacobianAndRHS
    rw [forAxes_ok _ (fun i => gridPlace dims coords t i - gridPlace dims coords x i) (fun i => by
      rw [hs.shape, ← hxd, hint x hx i, hs.target]
      rfl)]
    simp only [bind, Except.bind]
    rw [forAxes_ok (fun i => forAxes fun j => _) (fun i j => jac dims coords x i j)]
    · rfl
    · intro i
      refine forAxes_ok _ _ fun j => ?_
      rw [hs.shape, ← hxd, hint _ (indsHi_inGrid dims hd x hx j) i, hint _ (indsLo_inGrid dims x hx j) i]
      rfl
  have hsol : solution g (jac dims coords x) (fun i => gridPlace dims coords t i - gridPlace dims coords x i) = change dims coords t x := by
    have h1 := solution_spec g hg hn (jac dims coords x) hdet (fun i => gridPlace dims coords t i - gridPlace dims coords x i)
    have hu : IsUnit (jac dims coords x) := (Matrix.isUnit_iff_isUnit_det _).2 (isUnit_iff_ne_zero.2 hdet)
    exact Matrix.mulVec_injective_of_isUnit hu (h1.trans (change_spec hdet).symm)
  have hm : s.moved g (fun i j => jac dims coords x i j) (fun i => gridPlace dims coords t i - gridPlace dims coords x i) =
      newton dims coords t x := by
    funext i
    unfold Finder.moved newton
    rw [show (fun i j => jac dims coords x i j) = jac dims coords x from rfl, hsol, hs.shape, hs.per i, ← hxd]
  have heq := next_eq g hks hn s b hb slvr hsl hok
  rw [if_neg (by rw [hin]; decide), hj] at heq
  simp only [bind, Except.bind] at heq
  rw [hm] at heq
  set slvr' := afterSolve g n slvr (flatten2 fun i j => jac dims coords x i j)
    (flatten1 fun i => gridPlace dims coords t i - gridPlace dims coords x i) with hslvr'
  set s1 : Finder ℝ n := { s with slvr := some slvr', dIndices := newton dims coords t x } with hs1
  have hon : On dims coords t s1 := by
    refine ⟨⟨⟨b, hb⟩, slvr', rfl, ?_⟩, hs.shape, hs.nodes, hs.bounds, hs.per, hs.target⟩
    exact afterSolve_ok g hks slvr hok _ _
  rw [on_error hd hon (newton_inGrid hd t x)] at heq
  exact ⟨s1, heq, hon, rfl, rfl, rfl, rfl, rfl, rfl⟩

theorem next_grid (g : Gels ℝ) (hg : GelsContract g) (hn : 1 ≤ n) (hd : GoodDims dims) (t : Fin n → ℝ) (ht : InGrid dims t)
    (s : Finder ℝ n) (hs : On dims coords t s) (hx : InGrid dims s.dIndices) (hdet : (jac dims coords s.dIndices).det ≠ 0) :
    ∃ s1 : Finder ℝ n, s.next g = .ok (s1.finishStep (distance (gridPlace dims coords (newton dims coords t s.dIndices))
        (gridPlace dims coords t))) ∧ On dims coords t s1 ∧ s1.dIndices = newton dims coords t s.dIndices ∧
      s1.iter = s.iter ∧ s1.errorHistory = s.errorHistory ∧ s1.nitermax = s.nitermax ∧ s1.tolpos = s.tolpos := by
  obtain ⟨s1, h1, h2, h3, h4, h5, h6, h7, -⟩ := next_grid_old g hg hn hd t ht s hs hx hdet
  exact ⟨s1, h1, h2, h3, h4, h5, h6, h7⟩

theorem finish_old (s : Finder ℝ n) (e : ℝ) (s' : Finder ℝ n) (h : ((-2 : Int), s') = s.finishStep e) : s.oldError + FOps.eps100 < e := by
  unfold Finder.finishStep at h
  dsimp only at h
  split_ifs at h with h1 h2 h3 <;> simp only [Prod.mk.injEq] at h
  · exact h1.1
  · exact absurd h.1 (by decide)
  · exact absurd h.1 (by decide)
  · exact absurd h.1 (by decide)

theorem on_finish (t : Fin n → ℝ) (s : Finder ℝ n) (e : ℝ) (h : On dims coords t s) : On dims coords t (s.finishStep e).2 := by
  unfold Finder.finishStep
  dsimp only
  split_ifs <;> exact ⟨h.ready, h.shape, h.nodes, h.bounds, h.per, h.target⟩

theorem on_start (nitermax : Int) (tolpos : ℝ) (t d : Fin n → ℝ) :
    On dims coords t (((Finder.new nitermax tolpos).setGrid dims (fun _ => 0) coords).reset d (gridPlace dims coords t)) where
  ready := ready_reset _ _ _ (ready_setGrid _ dims (fun _ => 0) coords)
  shape := rfl
  nodes := fun _ => rfl
  bounds := boundsOK_setGrid _ dims (fun _ => 0) coords
  per := fun i => by simp [Finder.reset, Finder.setGrid, Finder.new]
  target := rfl

/-! ### A whole search, any grid -/

theorem iterate_inGrid (hd : GoodDims dims) (t d : Fin n → ℝ) (hdg : InGrid dims d) : ∀ k, InGrid dims ((newton dims coords t)^[k] d)
  | 0 => hdg
  | k + 1 => by rw [Function.iterate_succ_apply']; exact newton_inGrid hd t _

theorem loop_grid (g : Gels ℝ) (hg : GelsContract g) (hn : 1 ≤ n) (hd : GoodDims dims) (t d : Fin n → ℝ) (ht : InGrid dims t) (hdg : InGrid dims d)
    (err : Nat → ℝ) (herr : err = fun i => distance (gridPlace dims coords ((newton dims coords t)^[i] d)) (gridPlace dims coords t))
    (hdet : ∀ k, (jac dims coords ((newton dims coords t)^[k] d)).det ≠ 0) (hdec : ∀ k, err (k + 2) ≤ err k)
    (N : Nat) (nitermax : Int) (hN : (N : Int) < nitermax) (tolpos : ℝ) (htol : err N < tolpos) :
    ∀ (m k fuel : Nat) (s : Finder ℝ n), k + m = N → 1 ≤ m → m ≤ fuel → On dims coords t s → s.dIndices = (newton dims coords t)^[k] d →
      s.iter = k → s.nitermax = nitermax → s.tolpos = tolpos → s.errorHistory = (List.range k).map (fun i => err (i + 1)) →
      ∃ s' k', searchLoop g fuel s = .ok (1, s') ∧ 1 ≤ k' ∧ k' ≤ N ∧ s'.dIndices = (newton dims coords t)^[k'] d ∧ On dims coords t s' ∧
        s'.iter = k'
  | 0, _, _, _, _, h1, _, _, _, _, _, _, _ => by omega
  | m + 1, k, 0, _, _, _, h1, _, _, _, _, _, _ => by omega
  | m + 1, k, fuel + 1, s, hk, _, hf, hs, hI, hit, hni, hto, heh => by
    obtain ⟨s1, hnext, hon, e1, e2, e3, e4, e5⟩ := next_grid g hg hn hd t ht s hs (by rw [hI]; exact iterate_inGrid hd t d hdg k)
      (by rw [hI]; exact hdet k)
    rw [hI, ← Function.iterate_succ_apply' (newton dims coords t) k d] at hnext e1
    have hnext : s.next g = .ok (s1.finishStep (err (k + 1))) := by rw [herr]; exact hnext
    obtain ⟨code, s2, hfin⟩ : ∃ code s2, s1.finishStep (err (k + 1)) = (code, s2) := ⟨_, _, rfl⟩
    have hon2 : On dims coords t s2 := by
      have := on_finish t s1 (err (k + 1)) hon
      rw [hfin] at this; exact this
    obtain ⟨f1, f2, f3, f4, f5, f6, f7, f8, f9, f10, f11⟩ := finishStep_spec s1 _ _ _ hfin.symm
    rw [hfin] at hnext
    have hlen : s2.errorHistory.length = k + 1 := by rw [f2, e3, heh]; simp
    have n2 : code ≠ -2 := by
      intro hc
      obtain ⟨g1, g2⟩ := f11 hc
      rw [hlen] at g1 g2
      have hget : s2.errorHistory.getD (k + 1 - 3) 0 = err (k - 1) := by
        rw [f2, e3, heh, List.getD_eq_getElem?_getD, List.getElem?_append_left (by simp; omega), List.getElem?_map,
          List.getElem?_range (by omega)]
        simp only [Option.map_some, Option.getD_some]
        rw [show k + 1 - 3 + 1 = k - 1 by omega]
      rw [hget] at g2
      have := hdec (k - 1)
      rw [show k - 1 + 2 = k + 1 by omega] at this
      have heps := FOpsLaws.eps_pos (K := ℝ)
      linarith
    have n1 : code ≠ -1 := by
      intro hc
      have := f10 hc
      rw [e4, hni, f1, e2, hit] at this
      omega
    unfold searchLoop
    rw [hnext]
    simp only [bind, Except.bind, pure, Except.pure]
    rcases f7 with hc | hc | hc | hc
    · subst hc
      exact ⟨s2, k + 1, rfl, by omega, by omega, f4.trans e1, hon2, by rw [f1, e2, hit]; push_cast; ring⟩
    · subst hc
      rw [if_pos rfl]
      have hbig := (f9 rfl).1
      rw [e5, hto] at hbig
      have hm : 1 ≤ m := by
        by_contra hm
        have hkN : k + 1 = N := by omega
        rw [hkN] at hbig
        exact hbig htol
      refine loop_grid g hg hn hd t d ht hdg err herr hdet hdec N nitermax hN tolpos htol m (k + 1) fuel s2 (by omega) hm (by omega) hon2
        (f4.trans e1) (by rw [f1, e2, hit]; push_cast; ring) (by rw [f5, e4, hni]) (by rw [f6, e5, hto]) ?_
      rw [f2, e3, heh, List.range_succ, List.map_append]
      rfl
    · exact absurd hc n1
    · exact absurd hc n2

/-- The same with errors that are not above both of the two before. -/
theorem loop_grid_max (g : Gels ℝ) (hg : GelsContract g) (hn : 1 ≤ n) (hd : GoodDims dims) (t d : Fin n → ℝ) (ht : InGrid dims t) (hdg : InGrid dims d)
    (err : Nat → ℝ) (herr : err = fun i => distance (gridPlace dims coords ((newton dims coords t)^[i] d)) (gridPlace dims coords t))
    (hdet : ∀ k, (jac dims coords ((newton dims coords t)^[k] d)).det ≠ 0) (hdec : ∀ k, 1 ≤ k → err (k + 2) ≤ max (err k) (err (k + 1)))
    (N : Nat) (nitermax : Int) (hN : (N : Int) < nitermax) (tolpos : ℝ) (htol : err N < tolpos) :
    ∀ (m k fuel : Nat) (s : Finder ℝ n), k + m = N → 1 ≤ m → m ≤ fuel → On dims coords t s → s.dIndices = (newton dims coords t)^[k] d →
      s.iter = k → s.nitermax = nitermax → s.tolpos = tolpos → s.errorHistory = (List.range k).map (fun i => err (i + 1)) → (1 ≤ k → s.oldError = err k) →
      ∃ s' k', searchLoop g fuel s = .ok (1, s') ∧ 1 ≤ k' ∧ k' ≤ N ∧ s'.dIndices = (newton dims coords t)^[k'] d ∧ On dims coords t s' ∧
        s'.iter = k'
  | 0, _, _, _, _, h1, _, _, _, _, _, _, _, _ => by omega
  | m + 1, k, 0, _, _, _, h1, _, _, _, _, _, _, _ => by omega
  | m + 1, k, fuel + 1, s, hk, _, hf, hs, hI, hit, hni, hto, heh, hoe => by
    obtain ⟨s1, hnext, hon, e1, e2, e3, e4, e5, e6⟩ := next_grid_old g hg hn hd t ht s hs (by rw [hI]; exact iterate_inGrid hd t d hdg k)
      (by rw [hI]; exact hdet k)
    rw [hI, ← Function.iterate_succ_apply' (newton dims coords t) k d] at hnext e1
    have hnext : s.next g = .ok (s1.finishStep (err (k + 1))) := by rw [herr]; exact hnext
    obtain ⟨code, s2, hfin⟩ : ∃ code s2, s1.finishStep (err (k + 1)) = (code, s2) := ⟨_, _, rfl⟩
    have hon2 : On dims coords t s2 := by
      have := on_finish t s1 (err (k + 1)) hon
      rw [hfin] at this; exact this
    obtain ⟨f1, f2, f3, f4, f5, f6, f7, f8, f9, f10, f11⟩ := finishStep_spec s1 _ _ _ hfin.symm
    rw [hfin] at hnext
    have hlen : s2.errorHistory.length = k + 1 := by rw [f2, e3, heh]; simp
    have n2 : code ≠ -2 := by
      intro hc
      obtain ⟨g1, g2⟩ := f11 hc
      rw [hlen] at g1 g2
      have hget : s2.errorHistory.getD (k + 1 - 3) 0 = err (k - 1) := by
        rw [f2, e3, heh, List.getD_eq_getElem?_getD, List.getElem?_append_left (by simp; omega), List.getElem?_map,
          List.getElem?_range (by omega)]
        simp only [Option.map_some, Option.getD_some]
        rw [show k + 1 - 3 + 1 = k - 1 by omega]
      rw [hget] at g2
      have := hdec (k - 1) (by omega)
      rw [show k - 1 + 2 = k + 1 by omega, show k - 1 + 1 = k by omega] at this
      have heps := FOpsLaws.eps_pos (K := ℝ)
      subst hc
      have hold := finish_old s1 _ _ hfin.symm
      rw [e6, hoe (by omega)] at hold
      rcases le_max_iff.1 this with h | h <;> linarith
    have n1 : code ≠ -1 := by
      intro hc
      have := f10 hc
      rw [e4, hni, f1, e2, hit] at this
      omega
    unfold searchLoop
    rw [hnext]
    simp only [bind, Except.bind, pure, Except.pure]
    rcases f7 with hc | hc | hc | hc
    · subst hc
      exact ⟨s2, k + 1, rfl, by omega, by omega, f4.trans e1, hon2, by rw [f1, e2, hit]; push_cast; ring⟩
    · subst hc
      rw [if_pos rfl]
      have hbig := (f9 rfl).1
      rw [e5, hto] at hbig
      have hm : 1 ≤ m := by
        by_contra hm
        have hkN : k + 1 = N := by omega
        rw [hkN] at hbig
        exact hbig htol
      refine loop_grid_max g hg hn hd t d ht hdg err herr hdet hdec N nitermax hN tolpos htol m (k + 1) fuel s2 (by omega) hm (by omega) hon2
        (f4.trans e1) (by rw [f1, e2, hit]; push_cast; ring) (by rw [f5, e4, hni]) (by rw [f6, e5, hto]) ?_ (fun _ => (f9 rfl).2.2)
      rw [f2, e3, heh, List.range_succ, List.map_append]
      rfl
    · exact absurd hc n1
    · exact absurd hc n2

/-! ### Nearly regular grids -/

/-- A vector with its length. -/
abbrev E (n : Nat) := EuclideanSpace ℝ (Fin n)
def vec (v : Fin n → ℝ) : E n := WithLp.toLp 2 v

theorem vec_sub (v w : Fin n → ℝ) : vec (fun i => v i - w i) = vec v - vec w := rfl

theorem distance_norm (p q : Fin n → ℝ) : distance p q = ‖vec p - vec q‖ := by
  rw [← vec_sub, EuclideanSpace.norm_eq]
  unfold distance
  congr 1
  refine Finset.sum_congr rfl fun i _ => ?_
  show _ = ‖p i - q i‖ ^ 2
  rw [Real.norm_eq_abs, sq_abs]

/-- The value of the regular part. -/
noncomputable def lin (A : Matrix (Fin n) (Fin n) ℝ) (w : Fin n → ℝ) : E n := vec (A.mulVec w)

theorem lin_eq (A : Matrix (Fin n) (Fin n) ℝ) (w : Fin n → ℝ) : lin A w = ∑ j, w j • vec (fun i => A i j) := by
  ext i
  show A.mulVec w i = _
  rw [Matrix.mulVec, dotProduct]
  simp [vec, mul_comm]

theorem lin_add (A : Matrix (Fin n) (Fin n) ℝ) (v w : Fin n → ℝ) : lin A (v + w) = lin A v + lin A w := by
  unfold lin; rw [Matrix.mulVec_add]; rfl

theorem lin_sub (A : Matrix (Fin n) (Fin n) ℝ) (v w : Fin n → ℝ) : lin A (v - w) = lin A v - lin A w := by
  unfold lin; rw [Matrix.mulVec_sub]; rfl

noncomputable def len (A : Matrix (Fin n) (Fin n) ℝ) (j : Fin n) : ℝ := Real.sqrt (∑ i, A i j ^ 2)

theorem lin_norm {A : Matrix (Fin n) (Fin n) ℝ} (hp : Perpendicular A) (w : Fin n → ℝ) : ‖lin A w‖ = Real.sqrt (∑ j, (len A j * |w j|) ^ 2) := by
  rw [EuclideanSpace.norm_eq]
  congr 1
  rw [show ∑ i, ‖(lin A w) i‖ ^ 2 = ∑ i, (∑ j, A i j * w j) ^ 2 from Finset.sum_congr rfl fun i _ => by
    show ‖A.mulVec w i‖ ^ 2 = _
    rw [Real.norm_eq_abs, sq_abs]; rfl, sum_sq_perp hp]
  refine Finset.sum_congr rfl fun j _ => ?_
  unfold len
  rw [mul_pow, Real.sq_sqrt (Finset.sum_nonneg fun i _ => sq_nonneg _), sq_abs]

theorem lin_mono {A : Matrix (Fin n) (Fin n) ℝ} (hp : Perpendicular A) {v w : Fin n → ℝ} (h : ∀ j, |v j| ≤ |w j|) : ‖lin A v‖ ≤ ‖lin A w‖ := by
  rw [lin_norm hp, lin_norm hp]
  refine Real.sqrt_le_sqrt (Finset.sum_le_sum fun j _ => ?_)
  have : 0 ≤ len A j := Real.sqrt_nonneg _
  exact pow_le_pow_left₀ (mul_nonneg this (abs_nonneg _)) (mul_le_mul_of_nonneg_left (h j) this) 2

theorem sum_len {A : Matrix (Fin n) (Fin n) ℝ} (hp : Perpendicular A) (w : Fin n → ℝ) : ∑ j, len A j * |w j| ≤ Real.sqrt n * ‖lin A w‖ := by
  rw [lin_norm hp, ← Real.sqrt_mul (Nat.cast_nonneg n)]
  refine Real.le_sqrt_of_sq_le ?_
  have := sq_sum_le_card_mul_sum_sq (s := (Finset.univ : Finset (Fin n))) (f := fun j => len A j * |w j|)
  simpa using this

/-- The grid near `[lo, hi]` with bound `κ` on the deviation. -/
structure Near (dims lo hi : Fin n → Nat) (κ : ℝ) (A : Matrix (Fin n) (Fin n) ℝ) (coords : Fin n → Nat → ℝ) : Prop where
  perp : Perpendicular A
  det : A.det ≠ 0
  secant : ∀ a b, PosIn lo hi a → PosIn lo hi b →
    ‖vec (gridPlace dims coords a) - vec (gridPlace dims coords b) - lin A (a - b)‖ ≤ κ * ‖lin A (a - b)‖
  jacobian : ∀ x, (∀ j, PosIn lo hi (indsHi dims x j) ∧ PosIn lo hi (indsLo x j)) → InGrid dims x → ∀ w,
    ‖vec ((jac dims coords x).mulVec w) - lin A w‖ ≤ κ * ‖lin A w‖

theorem vec_place (u : Fin n → ℝ) :
    vec (gridPlace dims coords u) = interpolated dims (fun m => vec fun i => coords i (rowMajor dims m)) u := by
  ext i
  have := interpolated_map (V := E n) (W := ℝ) (EuclideanSpace.proj i : EuclideanSpace ℝ (Fin n) →L[ℝ] ℝ).toLinearMap dims
    (fun m => vec fun i => coords i (rowMajor dims m)) u
  exact this.symm

theorem near_of (hd : GoodDims dims) {lo hi : Fin n → Nat} (hhi : ∀ i, hi i < dims i) {ε : ℝ} {A : Matrix (Fin n) (Fin n) ℝ}
    (hε : 0 ≤ ε) (h : NearlyRegular dims lo hi ε A coords) : Near dims lo hi (ε * Real.sqrt n) A coords := by
  have hdiff : ∀ a b, PosIn lo hi a → PosIn lo hi b →
      ‖vec (gridPlace dims coords a) - vec (gridPlace dims coords b) - lin A (a - b)‖ ≤ ∑ j, ε * len A j * |a j - b j| := by
    intro a b ha hb
    rw [vec_place, vec_place, lin_eq]
    refine interpolated_diff dims (fun i => (hd i).1) lo hi hhi _ (fun j => vec fun i => A i j) (fun j => ε * len A j) ?_ a b ha hb
    intro m hm j hj
    have := h.edge m hm j hj
    rw [distance_norm] at this
    exact this
  have hb : ∀ w : Fin n → ℝ, ∑ j, ε * len A j * |w j| ≤ ε * Real.sqrt n * ‖lin A w‖ := by
    intro w
    have := mul_le_mul_of_nonneg_left (sum_len h.perp w) hε
    rw [Finset.mul_sum] at this
    simp only [← mul_assoc] at this
    exact this
  refine ⟨h.perp, h.det, fun a b ha hb' => (hdiff a b ha hb').trans (hb _), ?_⟩
  intro x hx hxg w
  refine le_trans ?_ (hb w)
  have e : vec ((jac dims coords x).mulVec w) - lin A w = ∑ j, w j • (vec (fun i => jac dims coords x i j) - vec (fun i => A i j)) := by
    have : vec ((jac dims coords x).mulVec w) = ∑ j, w j • vec (fun i => jac dims coords x i j) := lin_eq _ w
    rw [this, lin_eq, ← Finset.sum_sub_distrib]
    exact Finset.sum_congr rfl fun j _ => (smul_sub _ _ _).symm
  rw [e]
  refine (norm_sum_le _ _).trans (Finset.sum_le_sum fun j _ => ?_)
  rw [norm_smul, Real.norm_eq_abs, mul_comm]
  refine mul_le_mul_of_nonneg_right ?_ (abs_nonneg _)
  have hlt := sub_pos.2 (hi_sub_lo dims hd x hxg j)
  set w0 := indsHi dims x j j - indsLo x j j with hw0
  have hsub : ∀ k, indsHi dims x j k - indsLo x j k = if k = j then w0 else 0 := by
    intro k
    by_cases hk : k = j
    · subst hk; rw [if_pos rfl]
    · rw [if_neg hk]; unfold indsHi indsLo; rw [if_neg hk, if_neg hk, sub_self]
  have h1 := hdiff _ _ (hx j).1 (hx j).2
  have h2 : ∑ k, ε * len A k * |indsHi dims x j k - indsLo x j k| = ε * len A j * w0 := by
    rw [Finset.sum_eq_single j]
    · rw [hsub, if_pos rfl, abs_of_pos hlt]
    · intro k _ hk; rw [hsub, if_neg hk, abs_zero, mul_zero]
    · intro h; exact absurd (Finset.mem_univ _) h
  have h3 : lin A (indsHi dims x j - indsLo x j) = w0 • vec (fun i => A i j) := by
    rw [lin_eq, Finset.sum_eq_single j]
    · rw [Pi.sub_apply]
    · intro k _ hk; rw [Pi.sub_apply, hsub, if_neg hk, zero_smul]
    · intro h; exact absurd (Finset.mem_univ _) h
  have h4 : vec (gridPlace dims coords (indsHi dims x j)) - vec (gridPlace dims coords (indsLo x j)) =
      w0 • vec (fun i => jac dims coords x i j) := by
    ext i
    show gridPlace dims coords (indsHi dims x j) i - gridPlace dims coords (indsLo x j) i = w0 * jac dims coords x i j
    unfold jac
    rw [Matrix.of_apply, ← hw0, mul_div_cancel₀ _ hlt.ne']
  rw [h2, h3, h4, ← smul_sub, norm_smul, Real.norm_of_nonneg hlt.le, mul_comm w0] at h1
  exact le_of_mul_le_mul_right h1 hlt

variable {lo hi : Fin n → Nat} {κ : ℝ} {A : Matrix (Fin n) (Fin n) ℝ}

theorem lin_zero (hA : A.det ≠ 0) {w : Fin n → ℝ} (h : lin A w = 0) : w = 0 := by
  have h' : A.mulVec w = 0 := by
    funext i
    exact congrArg (fun v : E n => v i) h
  by_contra hw
  exact hA (Matrix.exists_mulVec_eq_zero_iff.1 ⟨w, hw, h'⟩)

/-- Positions whose neighbours half an index away are in the box. -/
def Inner (dims lo hi : Fin n → Nat) (x : Fin n → ℝ) : Prop :=
  ∀ j, (lo j = 0 ∨ (lo j : ℝ) + 1 / 2 ≤ x j) ∧ (hi j = dims j - 1 ∨ x j + 1 / 2 ≤ hi j)

theorem inner_pos (hd : GoodDims dims) {x : Fin n → ℝ} (hx : InGrid dims x) (h : Inner dims lo hi x) : PosIn lo hi x := by
  intro j
  obtain ⟨h1, h2⟩ := h j
  constructor
  · rcases h1 with h1 | h1
    · rw [h1]; simpa using (hx j).1
    · linarith
  · rcases h2 with h2 | h2
    · have := (hx j).2
      rw [h2, Nat.cast_sub (by have := (hd j).1; omega)]
      simpa using this
    · linarith

theorem inner_hi_lo (hd : GoodDims dims) {x : Fin n → ℝ} (hx : InGrid dims x) (h : Inner dims lo hi x) (j : Fin n) :
    PosIn lo hi (indsHi dims x j) ∧ PosIn lo hi (indsLo x j) := by
  have hp := inner_pos hd hx h
  have hm : ((dims j - 1 : Nat) : ℝ) = (dims j : ℝ) - 1 := by push_cast [Nat.cast_sub (show 1 ≤ dims j by have := (hd j).1; omega)]; ring
  constructor <;> intro k <;> by_cases hk : k = j
  · subst hk
    have := hp k
    rw [indsHi_at hd]
    refine ⟨?_, ?_⟩
    · have := hx k
      exact le_min (by linarith) (by linarith)
    · rcases (h k).2 with h2 | h2
      · rw [h2, hm]; exact min_le_right _ _
      · exact (min_le_left _ _).trans h2
  · unfold indsHi; rw [if_neg hk]; exact hp k
  · subst hk
    have := hp k
    rw [indsLo_at]
    refine ⟨?_, ?_⟩
    · rcases (h k).1 with h1 | h1
      · rw [h1]; simp
      · exact le_max_of_le_left (by linarith)
    · exact max_le (by linarith) (Nat.cast_nonneg _)
  · unfold indsLo; rw [if_neg hk]; exact hp k

theorem near_det (hd : GoodDims dims) (h : Near dims lo hi κ A coords) (hκ : κ < 1) {x : Fin n → ℝ} (hx : InGrid dims x)
    (hin : Inner dims lo hi x) : (jac dims coords x).det ≠ 0 := by
  intro h0
  obtain ⟨w, hw, hw0⟩ := Matrix.exists_mulVec_eq_zero_iff.2 h0
  have := h.jacobian x (inner_hi_lo hd hx hin) hx w
  rw [hw0] at this
  have e : vec (0 : Fin n → ℝ) = 0 := rfl
  rw [e, zero_sub, norm_neg] at this
  have hn : ‖lin A w‖ = 0 := by
    have := norm_nonneg (lin A w)
    nlinarith
  exact hw (lin_zero h.det (norm_eq_zero.1 hn))

/-- One step brings the index position closer. -/
theorem near_contract (hd : GoodDims dims) (h : Near dims lo hi κ A coords) (hκ0 : 0 ≤ κ) (hκ : κ < 1) {t x : Fin n → ℝ} (ht : InGrid dims t)
    (htb : PosIn lo hi t) (hx : InGrid dims x) (hin : Inner dims lo hi x) :
    (1 - κ) * ‖lin A (newton dims coords t x - t)‖ ≤ 2 * κ * ‖lin A (x - t)‖ := by
  set w := change dims coords t x with hw
  have hJ := h.jacobian x (inner_hi_lo hd hx hin) hx w
  rw [hw, change_spec (near_det hd h hκ hx hin), ← hw, vec_sub] at hJ
  have hs := h.secant x t (inner_pos hd hx hin) htb
  have htr : ‖lin A (newton dims coords t x - t)‖ ≤ ‖lin A (x + w - t)‖ :=
    lin_mono h.perp fun j => truncate_contract (hd j).1 _ (t j) (ht j).1 (ht j).2
  have e1 : lin A (x + w - t) = lin A w + lin A (x - t) := by rw [← lin_add]; congr 1; abel
  set P := vec (gridPlace dims coords x) with hP
  set T := vec (gridPlace dims coords t) with hT
  have e2 : lin A w + lin A (x - t) = -((T - P - lin A w) + (P - T - lin A (x - t))) := by abel
  have b1 : ‖lin A (x + w - t)‖ ≤ κ * ‖lin A w‖ + κ * ‖lin A (x - t)‖ := by
    rw [e1, e2, norm_neg]
    exact (norm_add_le _ _).trans (add_le_add hJ hs)
  have b2 : ‖lin A w‖ ≤ ‖lin A (x + w - t)‖ + ‖lin A (x - t)‖ := by
    have : lin A w = lin A (x + w - t) - lin A (x - t) := by rw [e1]; abel
    rw [this]
    exact norm_sub_le _ _
  have b3 : (1 - κ) * ‖lin A (x + w - t)‖ ≤ 2 * κ * ‖lin A (x - t)‖ := by nlinarith
  exact (mul_le_mul_of_nonneg_left htr (by linarith)).trans b3

end
end Sg.Curved
