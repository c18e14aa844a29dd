import Verif.Proof.CurvedSearch
import Verif.Proof.Witness
/-
Property C101: searches on curved grids that are nearly regular around the target.
-/
namespace Sg.Props
open Sg Sg.FindPoint Sg.LinearSolve Sg.Spec Sg.Witness

section
variable {n : Nat} {dims lo hi : Fin n → Nat} {ε : ℝ} {A : Matrix (Fin n) (Fin n) ℝ} {coords : Fin n → Nat → ℝ}

theorem distance_lin (u v : Fin n → ℝ) : distance (A.mulVec u) (A.mulVec v) = ‖Curved.lin A (u - v)‖ := by
  rw [Curved.distance_norm, Curved.lin_sub]
  rfl

/-- Errors of the iteration. -/
theorem curved_iterate (hd : GoodDims dims) (hε : 0 ≤ ε) (hκ : ε * Real.sqrt n ≤ 1 / 4) (hhi : ∀ i, hi i < dims i)
    (h : NearlyRegular dims lo hi ε A coords) (t d : Fin n → ℝ) (ht : InGrid dims t) (hdg : InGrid dims d)
    (hbox : ∀ u, InGrid dims u → distance (A.mulVec u) (A.mulVec t) ≤ distance (A.mulVec d) (A.mulVec t) →
      ∀ j, (lo j = 0 ∨ (lo j : ℝ) + 1 / 2 ≤ u j) ∧ (hi j = dims j - 1 ∨ u j + 1 / 2 ≤ hi j)) (i : Nat) :
    ∀ k, distance (A.mulVec ((Curved.newton dims coords t)^[i + k] d)) (A.mulVec t) ≤
      (8 / 3 * (ε * Real.sqrt n)) ^ k * distance (A.mulVec ((Curved.newton dims coords t)^[i] d)) (A.mulVec t) ∧
      distance (A.mulVec ((Curved.newton dims coords t)^[i + k] d)) (A.mulVec t) ≤ distance (A.mulVec d) (A.mulVec t) := by
  set κ := ε * Real.sqrt n with hk
  have hκ0 : 0 ≤ κ := mul_nonneg hε (Real.sqrt_nonneg _)
  have hn := Curved.near_of hd hhi hε h
  have htb : Curved.PosIn lo hi t := Curved.inner_pos hd ht (hbox t ht (by
    have h0 : distance (A.mulVec t) (A.mulVec t) = 0 := by simp [distance]
    rw [h0]; exact Real.sqrt_nonneg _))
  have step : ∀ k, distance (A.mulVec ((Curved.newton dims coords t)^[k] d)) (A.mulVec t) ≤ distance (A.mulVec d) (A.mulVec t) →
      distance (A.mulVec ((Curved.newton dims coords t)^[k + 1] d)) (A.mulVec t) ≤
        8 / 3 * κ * distance (A.mulVec ((Curved.newton dims coords t)^[k] d)) (A.mulVec t) := by
    intro k hle
    have hxg := Curved.iterate_inGrid (coords := coords) hd t d hdg k
    have := Curved.near_contract hd hn hκ0 (by linarith) ht htb hxg (hbox _ hxg hle)
    rw [distance_lin, distance_lin, Function.iterate_succ_apply']
    set e := ‖Curved.lin A ((Curved.newton dims coords t)^[k] d - t)‖
    set e' := ‖Curved.lin A (Curved.newton dims coords t ((Curved.newton dims coords t)^[k] d) - t)‖
    have h0 : 0 ≤ e' := norm_nonneg _
    nlinarith
  have hall : ∀ k, distance (A.mulVec ((Curved.newton dims coords t)^[k] d)) (A.mulVec t) ≤ distance (A.mulVec d) (A.mulVec t) := by
    intro k
    induction k with
    | zero => exact le_rfl
    | succ k ih =>
      have h0 : 0 ≤ distance (A.mulVec ((Curved.newton dims coords t)^[k] d)) (A.mulVec t) := Real.sqrt_nonneg _
      have := step k ih
      nlinarith
  intro k
  refine ⟨?_, hall _⟩
  induction k with
  | zero => simp
  | succ k ih =>
    rw [← Nat.add_assoc]
    refine (step _ (hall _)).trans ?_
    have := mul_le_mul_of_nonneg_left ih (show 0 ≤ 8 / 3 * κ by linarith)
    rw [pow_succ']
    linarith

/-- **C101, the indices of a place.**  In the nearly regular part of the grid (`ε √n ≤ 1/4`) different index positions have different places: the distance
between the places is, up to a quarter, that of the regular grid. -/
theorem C101_unique (hd : GoodDims dims) (hε : 0 ≤ ε) (hκ : ε * Real.sqrt n ≤ 1 / 4) (hhi : ∀ i, hi i < dims i)
    (h : NearlyRegular dims lo hi ε A coords) (a b : Fin n → ℝ) (ha : ∀ j, (lo j : ℝ) ≤ a j ∧ a j ≤ hi j)
    (hb : ∀ j, (lo j : ℝ) ≤ b j ∧ b j ≤ hi j) :
    3 / 4 * distance (A.mulVec a) (A.mulVec b) ≤ distance (gridPlace dims coords a) (gridPlace dims coords b) ∧
    distance (gridPlace dims coords a) (gridPlace dims coords b) ≤ 5 / 4 * distance (A.mulVec a) (A.mulVec b) ∧
    (gridPlace dims coords a = gridPlace dims coords b → a = b) := by
  have hs := (Curved.near_of hd hhi hε h).secant a b ha hb
  set κ := ε * Real.sqrt n
  rw [distance_lin, Curved.distance_norm]
  set L := Curved.lin A (a - b) with hL
  set P := Curved.vec (gridPlace dims coords a) - Curved.vec (gridPlace dims coords b) with hP
  have h0 : 0 ≤ ‖L‖ := norm_nonneg _
  have h1 := norm_sub_norm_le P L
  have h2 := norm_sub_norm_le L P
  rw [norm_sub_rev L P] at h2
  have h3 : κ * ‖L‖ ≤ 1 / 4 * ‖L‖ := mul_le_mul_of_nonneg_right hκ h0
  have b1 : 3 / 4 * ‖L‖ ≤ ‖P‖ := by linarith
  refine ⟨b1, by linarith, fun he => ?_⟩
  have : P = 0 := by rw [hP, he, sub_self]
  rw [this, norm_zero] at b1
  have : L = 0 := norm_eq_zero.1 (by linarith)
  exact sub_eq_zero.1 (Curved.lin_zero h.det this)

/-- **C101.**  The search on a curved grid, of any number `n ≥ 1` of axes.  The part of the grid with node indices from `lo` to `hi` is nearly regular: its edges
are those of a grid of equal rectangular cells up to a relative error `ε`, with `ε √n ≤ 1/4`.  The search for the place of index position `t` starts at `d`, and all index positions that are not farther
from `t` than `d` (as measured in the regular grid) are in this part and not within half a cell of its edges, unless these are edges of the whole grid.  The search then
ends with the code 1 if `5/4 (8/3 ε √n)^N` times the distance of `d` from `t` is below the tolerance, and more than `N` iterations are allowed.  It takes some number `k ≤ N` of steps; the distance of
the indices found from `t` is then at most `(8/3 ε √n)^k` times that of the start, and the place found is closer to the target than the tolerance. -/
theorem C101_found (g : Gels ℝ) (hg : GelsContract g) (hn : 1 ≤ n) (hd : GoodDims dims) (hε : 0 ≤ ε) (hκ : ε * Real.sqrt n ≤ 1 / 4)
    (hhi : ∀ i, hi i < dims i) (h : NearlyRegular dims lo hi ε A coords) (t d : Fin n → ℝ) (ht : InGrid dims t) (hdg : InGrid dims d)
    (hbox : ∀ u, InGrid dims u → distance (A.mulVec u) (A.mulVec t) ≤ distance (A.mulVec d) (A.mulVec t) →
      ∀ j, (lo j = 0 ∨ (lo j : ℝ) + 1 / 2 ≤ u j) ∧ (hi j = dims j - 1 ∨ u j + 1 / 2 ≤ hi j))
    (N : Nat) (hN1 : 1 ≤ N) (nitermax : Int) (hN : (N : Int) < nitermax) (tolpos : ℝ)
    (htol : 5 / 4 * (8 / 3 * (ε * Real.sqrt n)) ^ N * distance (A.mulVec d) (A.mulVec t) < tolpos) :
    ∃ s' k, searchLoop g nitermax.toNat (((Finder.new nitermax tolpos).setGrid dims (fun _ => 0) coords).reset d
        (gridPlace dims coords t)) = .ok (1, s') ∧ 1 ≤ k ∧ k ≤ N ∧ s'.iter = k ∧ InGrid dims s'.dIndices ∧
      distance (A.mulVec s'.dIndices) (A.mulVec t) ≤ (8 / 3 * (ε * Real.sqrt n)) ^ k * distance (A.mulVec d) (A.mulVec t) ∧
      distance (gridPlace dims coords s'.dIndices) (gridPlace dims coords t) < tolpos := by
  have hit := curved_iterate hd hε hκ hhi h t d ht hdg hbox
  have hκ0 : 0 ≤ ε * Real.sqrt n := mul_nonneg hε (Real.sqrt_nonneg _)
  have hinn : ∀ k, Curved.Inner dims lo hi ((Curved.newton dims coords t)^[k] d) := fun k => by
    have := (hit 0 k).2
    rw [Nat.zero_add] at this
    exact hbox _ (Curved.iterate_inGrid hd t d hdg k) this
  have hpos : ∀ k, Curved.PosIn lo hi ((Curved.newton dims coords t)^[k] d) := fun k =>
    Curved.inner_pos hd (Curved.iterate_inGrid hd t d hdg k) (hinn k)
  have htb : Curved.PosIn lo hi t := Curved.inner_pos hd ht (hbox t ht (by
    have h0 : distance (A.mulVec t) (A.mulVec t) = 0 := by simp [distance]
    rw [h0]; exact Real.sqrt_nonneg _))
  have hun := fun k => C101_unique hd hε hκ hhi h _ t (hpos k) htb
  obtain ⟨s', k, h1, h2, h3, h4, h5, h6⟩ := Curved.loop_grid (coords := coords) g hg hn hd t d ht hdg _ rfl
    (fun k => Curved.near_det hd (Curved.near_of hd hhi hε h) (by linarith) (Curved.iterate_inGrid hd t d hdg k) (hinn k))
    (fun k => by
      obtain ⟨u1, u2, _⟩ := hun k
      obtain ⟨v1, v2, _⟩ := hun (k + 2)
      have hc := (hit k 2).1
      set e := distance (A.mulVec ((Curved.newton dims coords t)^[k] d)) (A.mulVec t)
      have h0 : 0 ≤ e := Real.sqrt_nonneg _
      have hq : (8 / 3 * (ε * Real.sqrt n)) ^ 2 ≤ 4 / 9 := by nlinarith
      have := mul_le_mul_of_nonneg_right hq h0
      show distance _ _ ≤ distance _ _
      linarith)
    N nitermax hN tolpos (by
      have hc := (hit 0 N).1
      rw [Nat.zero_add] at hc
      have := (hun N).2.1
      have hc : distance (A.mulVec ((Curved.newton dims coords t)^[N] d)) (A.mulVec t) ≤
        (8 / 3 * (ε * Real.sqrt n)) ^ N * distance (A.mulVec d) (A.mulVec t) := hc
      show distance _ _ < _
      linarith)
    N 0 nitermax.toNat _ (by omega) hN1 (by omega) (Curved.on_start nitermax tolpos t d) rfl rfl rfl rfl rfl
  have hin : InGrid dims s'.dIndices := by rw [h4]; exact Curved.iterate_inGrid hd t d hdg k
  refine ⟨s', k, h1, h2, h3, h6, hin, ?_, ?_⟩
  · have := (hit 0 k).1
    rw [Nat.zero_add, ← h4] at this
    exact this
  · obtain ⟨e, he, hlt⟩ := NodeInterp.loop_error g _ _ _ h1
    rw [Curved.on_error hd h5 hin, Except.ok.injEq] at he
    rw [he]
    exact hlt

end

/-! ### Nodal interpolation -/
section nodal
open Sg.NodeInterp
variable {dims : Fin 2 → Nat} {ε : ℝ} {A : Matrix (Fin 2) (Fin 2) ℝ} {coords : Fin 2 → Nat → ℝ}

/-- **C101**, nodal interpolation from a nearly regular grid (the whole of it), the size of which as measured in the regular grid is at most `D`: every destination node in the source
grid gets weights. -/
theorem C101_nodal (g : Gels ℝ) (hg : GelsContract g) (hd : ∀ i, 2 ≤ dims i ∧ dims i ≤ 2 ^ 30) (hε : 0 ≤ ε) (hκ : ε * Real.sqrt 2 ≤ 1 / 4)
    (h : NearlyRegular dims (fun _ => 0) (fun i => dims i - 1) ε A coords) (D : ℝ)
    (hD : ∀ u v, InGrid dims u → InGrid dims v → distance (A.mulVec u) (A.mulVec v) ≤ D)
    (N : Nat) (hN1 : 1 ≤ N) (nitermax : Int) (hN : (N : Int) < nitermax) (tolpos : ℝ) (htol : 5 / 4 * (8 / 3 * (ε * Real.sqrt 2)) ^ N * D < tolpos)
    (dd : Fin 2 → Nat) (dc : Fin 2 → Nat → ℝ) :
    ∃ o, (((NodeInterp.new nitermax tolpos).setSrcGrid dims (fun _ => 0) coords).setDstGrid dd dc).computeWeights g = .ok o ∧
      ∀ k < dd 0 * dd 1, (∃ t, InGrid dims t ∧ (fun i => dc i k) = gridPlace dims coords t) → ∃ iw, (k, iw) ∈ o.weights := by
  have hks : KeepsSizes g := hg.sizes
  have hgd : GoodDims dims := fun i => ⟨(hd i).1, (hd i).2.trans (by norm_num)⟩
  obtain ⟨o, ho, hall⟩ := C41_found_partial g hks nitermax tolpos dims hd (fun _ => 0) coords dd dc
  refine ⟨o, ho, ?_⟩
  rintro k hk ⟨t, ht, htk⟩
  set o0 := (((NodeInterp.new nitermax tolpos).setSrcGrid dims (fun _ => 0) coords).setDstGrid dd dc) with ho0
  have hset := set2_of nitermax tolpos dims hd (fun _ => 0) coords dd dc
  obtain ⟨s, code, f, hs, hf, hiff⟩ := hall k hk
  rw [hiff]
  obtain ⟨s', hs', hl⟩ := before_good g hks o0 dims hset k (le_of_lt hk)
  rw [hs, Except.ok.injEq] at hs'
  subst hs'
  have hpos : InGrid dims s.dIndices := hl.pos
  have hq0 : 0 ≤ 8 / 3 * (ε * Real.sqrt 2) := mul_nonneg (by norm_num) (mul_nonneg hε (Real.sqrt_nonneg _))
  have hr0 : 0 ≤ 5 / 4 * (8 / 3 * (ε * Real.sqrt 2)) ^ N := mul_nonneg (by norm_num) (pow_nonneg hq0 _)
  obtain ⟨f', _, e1, _⟩ := C101_found g hg (by norm_num) hgd hε (by simpa using hκ) (fun i => by have := (hd i).1; omega) h t s.dIndices ht hpos
    (fun u _ _ j => ⟨.inl rfl, .inl rfl⟩) N hN1 nitermax hN tolpos
    (by simpa using (mul_le_mul_of_nonneg_left (hD _ _ hpos ht) hr0).trans_lt htol)
  have hs0 := findTarget_same g hks o0.finder s.finder hset.grid.ready hl.ready hl.same (fun j => dc j k) s.dIndices
  have hb : findTarget g o0.finder (fun j => dc j k) s.dIndices = .ok (0, f') := by
    unfold findTarget
    have hfu : o0.finder.fuelOf = nitermax.toNat := by
      show (max nitermax 1).toNat = _
      rw [max_eq_left (by omega)]
    rw [hfu, htk]
    have e1' : searchLoop g nitermax.toNat (o0.finder.reset s.dIndices (gridPlace dims coords t)) = .ok (1, f') := e1
    rw [e1']
    rfl
  rw [hb, hf] at hs0
  exact hs0.1

end nodal

/-! ### An example: the parabolas y = j + x²/20 on 4 times 3 nodes -/

/-- Nodes (i, j + i²/20). -/
noncomputable def bentCoords : Fin 2 → Nat → ℝ := fun i k => if i = 0 then ((k / 3 : Nat) : ℝ) else ((k % 3 : Nat) : ℝ) + ((k / 3 : Nat) : ℝ) ^ 2 / 20

theorem bent_node (a : Nat) (m : Fin 2 → Nat) (h : m 1 < 3) (i : Fin 2) :
    bentCoords i (rowMajor ![a, 3] m) = if i = 0 then (m 0 : ℝ) else (m 1 : ℝ) + (m 0 : ℝ) ^ 2 / 20 := by
  have e : rowMajor ![a, 3] m = m 0 * 3 + m 1 := by rw [rowMajor_succ, rowMajor_succ]; simp [rowMajor]
  unfold bentCoords
  rw [e, show (m 0 * 3 + m 1) / 3 = m 0 by omega, show (m 0 * 3 + m 1) % 3 = m 1 by omega]

/-- The slope of the first edges along the first axis is between 1/20 and 3/20: the part with the first three columns is nearly regular. -/
theorem bent_near (a : Nat) : NearlyRegular ![a, 3] ![0, 0] ![2, 2] (3 / 20) 1 bentCoords where
  perp j k hjk := by
    fin_cases j <;> fin_cases k <;> simp [Matrix.one_apply] at hjk ⊢
  det := by simp
  edge m hm j hj := by
    have h0 := hm 0
    have h1 := hm 1
    simp only [Matrix.cons_val_zero, Matrix.cons_val_one] at h0 h1
    have hs : ∀ j : Fin 2, Real.sqrt (∑ i, (1 : Matrix (Fin 2) (Fin 2) ℝ) i j ^ 2) = 1 := by
      intro j; fin_cases j <;> simp [Matrix.one_apply]
    rw [hs, mul_one]
    unfold distance
    rw [show (3 / 20 : ℝ) = Real.sqrt ((3 / 20) ^ 2) by rw [Real.sqrt_sq (by norm_num)]]
    refine Real.sqrt_le_sqrt ?_
    rw [Fin.sum_univ_two]
    dsimp only
    fin_cases j
    · have hj : m 0 < 2 := by simpa using hj
      have e1 : Function.update m (0 : Fin 2) (m 0 + 1) 1 = m 1 := by simp
      have e0 : Function.update m (0 : Fin 2) (m 0 + 1) 0 = m 0 + 1 := by simp
      dsimp only [Fin.zero_eta]
      have b := fun i => bent_node a m (by omega) i
      have b' := fun i => bent_node a _ (e1.trans_lt (by omega)) i
      rw [b', b', b, b, e0, e1]
      have : m 0 = 0 ∨ m 0 = 1 := by omega
      rcases this with e | e <;> rw [e] <;> norm_num [Matrix.one_apply]
    · have hj : m 1 < 2 := by simpa using hj
      have e1 : Function.update m (1 : Fin 2) (m 1 + 1) 1 = m 1 + 1 := by simp
      have e0 : Function.update m (1 : Fin 2) (m 1 + 1) 0 = m 0 := by simp
      dsimp only [Fin.mk_one]
      have b := fun i => bent_node a m (by omega) i
      have b' := fun i => bent_node a _ (e1.trans_lt (by omega)) i
      rw [b', b', b, b, e0, e1]
      norm_num [Matrix.one_apply]

/-- The hypotheses of `C101_found` are met: the search for (1/2, 1 + 1/40) at the index position (1/2, 1), from (1, 1). -/
example : ∃ (s' : Finder ℝ 2) (k : Nat), searchLoop refGels (20 : Int).toNat (((Finder.new 20 (1 / 1000)).setGrid ![4, 3] (fun _ => 0) bentCoords).reset ![1, 1]
    (gridPlace ![4, 3] bentCoords ![1 / 2, 1])) = .ok (1, s') ∧ 1 ≤ k ∧ k ≤ 15 ∧ s'.iter = k := by
  have hsq : (3 / 20 : ℝ) * Real.sqrt (2 : Nat) ≤ 3 / 20 * (3 / 2) := by
    refine mul_le_mul_of_nonneg_left ?_ (by norm_num)
    rw [show (3 / 2 : ℝ) = Real.sqrt ((3 / 2) ^ 2) by rw [Real.sqrt_sq (by norm_num)]]
    exact Real.sqrt_le_sqrt (by norm_num)
  have hdist : ∀ u : Fin 2 → ℝ, distance ((1 : Matrix (Fin 2) (Fin 2) ℝ).mulVec u) ((1 : Matrix (Fin 2) (Fin 2) ℝ).mulVec ![1 / 2, 1]) =
      Real.sqrt ((u 0 - 1 / 2) ^ 2 + (u 1 - 1) ^ 2) := by
    intro u
    rw [Matrix.one_mulVec, Matrix.one_mulVec]
    unfold distance
    rw [Fin.sum_univ_two]
    rfl
  have h12 : distance ((1 : Matrix (Fin 2) (Fin 2) ℝ).mulVec ![1, 1]) ((1 : Matrix (Fin 2) (Fin 2) ℝ).mulVec ![1 / 2, 1]) = 1 / 2 := by
    rw [hdist, show ((![1, 1] : Fin 2 → ℝ) 0 - 1 / 2) ^ 2 + ((![1, 1] : Fin 2 → ℝ) 1 - 1) ^ 2 = (1 / 2) ^ 2 by norm_num,
      Real.sqrt_sq (by norm_num)]
  obtain ⟨s', k, h1, h2, h3, h4, _⟩ := C101_found (n := 2) (dims := ![4, 3]) (lo := ![0, 0]) (hi := ![2, 2]) refGels refGels_contract (by norm_num)
    (fun i => by fin_cases i <;> simp) (by norm_num) (hsq.trans (by norm_num)) (fun i => by fin_cases i <;> simp) (bent_near 4) ![1 / 2, 1] ![1, 1]
    (fun i => by fin_cases i <;> norm_num) (fun i => by fin_cases i <;> norm_num) (by
      intro u _ hu j
      rw [h12, hdist] at hu
      have := (Real.sqrt_le_left (by norm_num)).1 hu
      fin_cases j
      · refine ⟨.inl rfl, .inr ?_⟩
        show u 0 + 1 / 2 ≤ ((2 : Nat) : ℝ)
        push_cast
        nlinarith [sq_nonneg (u 1 - 1), sq_nonneg (u 0 - 3 / 2)]
      · exact ⟨.inl rfl, .inl rfl⟩) 15 (by norm_num) 20 (by norm_num) (1 / 1000) (by
      rw [h12]
      have h0 : 0 ≤ 8 / 3 * (3 / 20 * Real.sqrt (2 : Nat)) := mul_nonneg (by norm_num) (mul_nonneg (by norm_num) (Real.sqrt_nonneg _))
      have : (8 / 3 * (3 / 20 * Real.sqrt (2 : Nat))) ^ 15 ≤ (3 / 5) ^ 15 := pow_le_pow_left₀ h0 (by linarith) 15
      have e : ((3 : ℝ) / 5) ^ 15 < 1 / 1000 := by norm_num
      linarith)
  exact ⟨s', k, h1, h2, h3, h4⟩

/-- The hypotheses of `C101_nodal` are met: the first three columns as source grid. -/
example : ∃ o, (((NodeInterp.new 30 (1 / 1000)).setSrcGrid ![3, 3] (fun _ => 0) bentCoords).setDstGrid ![1, 1]
    (fun i _ => gridPlace ![3, 3] bentCoords ![1 / 2, 3 / 2] i)).computeWeights refGels = .ok o ∧ ∃ iw, (0, iw) ∈ o.weights := by
  have hsq : (3 / 20 : ℝ) * Real.sqrt 2 ≤ 3 / 20 * (3 / 2) := by
    refine mul_le_mul_of_nonneg_left ?_ (by norm_num)
    rw [show (3 / 2 : ℝ) = Real.sqrt ((3 / 2) ^ 2) by rw [Real.sqrt_sq (by norm_num)]]
    exact Real.sqrt_le_sqrt (by norm_num)
  have hn : NearlyRegular ![3, 3] (fun _ => 0) (fun i => ![3, 3] i - 1) (3 / 20) 1 bentCoords := by
    have e1 : (fun _ => 0 : Fin 2 → Nat) = ![0, 0] := by funext i; fin_cases i <;> rfl
    have e2 : (fun i => ![3, 3] i - 1 : Fin 2 → Nat) = ![2, 2] := by funext i; fin_cases i <;> rfl
    rw [e1, e2]
    exact bent_near 3
  obtain ⟨o, ho, hall⟩ := C101_nodal refGels refGels_contract (fun i => by fin_cases i <;> simp) (by norm_num) (hsq.trans (by norm_num)) hn 3 (by
      intro u v hu hv
      rw [Matrix.one_mulVec, Matrix.one_mulVec]
      unfold distance
      rw [Fin.sum_univ_two, show (3 : ℝ) = Real.sqrt (3 ^ 2) by rw [Real.sqrt_sq (by norm_num)]]
      refine Real.sqrt_le_sqrt ?_
      have b : ∀ i : Fin 2, ((![3, 3] i : Nat) : ℝ) - 1 = 2 := fun i => by fin_cases i <;> norm_num
      have a0 := hu 0
      have a1 := hu 1
      have c0 := hv 0
      have c1 := hv 1
      rw [b] at a0 a1 c0 c1
      have d0 : (u 0 - v 0) ^ 2 ≤ 2 ^ 2 := sq_le_sq' (by linarith) (by linarith)
      have d1 : (u 1 - v 1) ^ 2 ≤ 2 ^ 2 := sq_le_sq' (by linarith) (by linarith)
      linarith) 20 (by norm_num) 30 (by norm_num) (1 / 1000) (by
      have h0 : 0 ≤ 8 / 3 * (3 / 20 * Real.sqrt 2) := mul_nonneg (by norm_num) (mul_nonneg (by norm_num) (Real.sqrt_nonneg _))
      have : (8 / 3 * (3 / 20 * Real.sqrt 2)) ^ 20 ≤ (3 / 5) ^ 20 := pow_le_pow_left₀ h0 (by linarith) 20
      have e : ((3 : ℝ) / 5) ^ 20 < 1 / 10000 := by norm_num
      linarith) ![1, 1] (fun i _ => gridPlace ![3, 3] bentCoords ![1 / 2, 3 / 2] i)
  exact ⟨o, ho, hall 0 (by simp) ⟨![1 / 2, 3 / 2], fun i => by fin_cases i <;> norm_num, rfl⟩⟩

end Sg.Props
