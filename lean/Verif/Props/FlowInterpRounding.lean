import Verif.Proof.FlowInterpRounded
import Verif.Props.FlowSegments
import Verif.Props.ConserveRounding
import Verif.Props.FlowPotential
/-
Property C116: flow interpolation in rounded arithmetic with a backward stable solver.  `srt` is `std::sort` and `pert` the perturbation of the nodes of
the line.
-/
namespace Sg.Props
open Sg Sg.FlowInterp Sg.QuadIntersect Sg.QuadFlows Sg.LinearSolve Sg.Triangulate Sg.FindPoint Sg.QuadLine Sg.Spec Sg.Plane

variable {rnd : ℝ → ℝ} {g : Gels (Fl rnd)} {u β Δ L R : ℝ}

theorem cellOf_val (n1 : Nat) (xs ys : List (Fl rnd)) (k : Nat) :
    valQuad (cellOf n1 (nodeAt xs ys) k) = gridQuad n1 (flVals xs) (flVals ys) (k / (n1 - 1)) (k % (n1 - 1)) := by
  rw [← cellOf_eq]
  funext c
  fin_cases c <;> (show (_, _) = (_, _); simp only [flVals_getD]; rfl)

/-- The numbers a flow is made of. -/
theorem flowSum_near {η : ℝ} (hr : Rounds rnd u η) (n0 n1 : Nat) (x y : List (Fl rnd)) (l : List (Nat × (Fin 4 → Fl rnd))) :
    |(flowSum n0 n1 x y l).val - (l.map fun c => flowDot (fun e => (c.2 e).val) (cellEdges n0 n1 (flVals x) (flVals y) c.1)).sum| ≤
      dotError u η (4 * l.length) (l.map fun c => ∑ e, |(c.2 e).val * cellEdges n0 n1 (flVals x) (flVals y) c.1 e|).sum := by
  have := dot_error hr (l.flatMap (cellProducts n0 n1 x y))
  have e1 : (l.flatMap (cellProducts n0 n1 x y)).length = 4 * l.length := by
    rw [List.length_flatMap]
    clear this
    induction l with
    | nil => rfl
    | cons c l ih => simp only [List.map_cons, List.sum_cons, ih, List.length_cons]; simp [cellProducts]; ring
  have e2 : flowSum n0 n1 x y l = dot (l.flatMap (cellProducts n0 n1 x y)) := by
    unfold flowSum dot
    rw [List.foldl_flatMap]
    rfl
  have e3 : ∀ f : Fl rnd × Fl rnd → ℝ, ((l.flatMap (cellProducts n0 n1 x y)).map f).sum = (l.map fun c => ((cellProducts n0 n1 x y c).map f).sum).sum := by
    intro f
    clear this e1 e2
    induction l with
    | nil => rfl
    | cons c l ih => simp only [List.flatMap_cons, List.map_append, List.sum_append, List.map_cons, List.sum_cons, ih]
  rw [e1, ← e2, e3, e3] at this
  have e4 : ∀ c, ((cellProducts n0 n1 x y c).map fun p => p.1.val * p.2.val).sum =
      flowDot (fun e => (c.2 e).val) (cellEdges n0 n1 (flVals x) (flVals y) c.1) := by
    intro c
    simp only [cellProducts, List.map_cons, List.map_nil, List.sum_cons, List.sum_nil, flowDot, cellEdges, flVals_getD]
    ring
  have e5 : ∀ c, ((cellProducts n0 n1 x y c).map fun p => |p.1.val * p.2.val|).sum =
      ∑ e, |(c.2 e).val * cellEdges n0 n1 (flVals x) (flVals y) c.1 e| := by
    intro c
    rw [Fin.sum_univ_four]
    simp only [cellProducts, List.map_cons, List.map_nil, List.sum_cons, List.sum_nil, cellEdges, flVals_getD]
    ring
  simp only [e4, e5] at this
  exact this

theorem size4_sum (E : Fin 4 → ℝ) : size4 E = ∑ e, |E e| := by rw [Fin.sum_univ_four]; rfl

/-- **C116** In rounded arithmetic: the flow of a segment (as stored) with a part of some length in a cell, and for which rounding changes no decision in any
cell, is the sum over the cells of the integrals, along its part inside, of the field given by the numbers on the edges of the cell, up to an error
that is proportional to these numbers. -/
theorem C116_integral (hf : SolvesLine rnd g u β Δ) (hs : SearchesFinely rnd g u β Δ (flowPointError u L R) L R)
    (hpe : projError u (indexError u β Δ (flowPointError u L R) L R) ≤ 1 / 100) (pert : Nat → Nat → Nat → Fl rnd)
    (srt : List (Fl rnd) → List (Fl rnd)) (hsrt : ∀ l, SortsTo l (srt l)) (n0 n1 : Nat) (h0 : 2 ≤ n0) (h1 : 2 ≤ n1) (hfit : n0 * n1 ≤ 1073741824)
    (xs ys : List (Fl rnd)) (hx : n0 * n1 ≤ xs.length) (hy : n0 * n1 ≤ ys.length) (n : Nat) (hn : 1 ≤ n) (us vs : List (Fl rnd)) (hu : n ≤ us.length)
    (hv : n ≤ vs.length) (x y : List (Fl rnd)) (hxl : (n0 - 1) * n1 ≤ x.length) (hyl : n0 * (n1 - 1) ≤ y.length) (d : List (Fl rnd))
    (hd : n - 1 ≤ d.length) :
    ∃ d', flowWith pert g srt [] n0 n1 xs ys n us vs 1 x y d = .ok d' ∧
      ∀ k < n - 1, ∀ a b, a = storedNode pert n us vs k → b = storedNode pert n us vs (k + 1) →
        (∀ i < n0 - 1, ∀ j < n1 - 1, FairFlow Δ L R (gridQuad n1 (flVals xs) (flVals ys) i j) a b) →
        (∃ i < n0 - 1, ∃ j < n1 - 1, ∃ s ∈ insideParams (gridQuad n1 (flVals xs) (flVals ys) i j) a b,
          ∃ t ∈ insideParams (gridQuad n1 (flVals xs) (flVals ys) i j) a b, lineTol ≤ |s - t|) →
        ∃ f, d'[k]? = some f ∧
          |f.val - ∑ i ∈ Finset.range (n0 - 1), ∑ j ∈ Finset.range (n1 - 1),
            fieldIntegral (gridQuad n1 (flVals xs) (flVals ys) i j) (edgeData n1 (flVals x) (flVals y) i j) a b| ≤
          (cellFlowError u β Δ L R + 2 * ((1 + u) ^ (4 * ((n0 - 1) * (n1 - 1)) + 1) - 1)) * edgeSize n0 n1 (flVals x) (flVals y) := by
  have hu0 := hs.rounds.rel
  obtain ⟨S, hS, hrun⟩ := flow_run pert g hs.stable.sizes (pieces_defined hs.rounds hs.ints hs.half hs.unit hs.stable.sizes) srt n0 n1 h0 h1 hfit
    xs ys hx hy n hn us vs hu hv
  obtain ⟨d', e, -, -, hd'⟩ := hrun x y hxl hyl d hd
  refine ⟨d', e, fun k hk a b ea eb hfair hsome => ?_⟩
  set N := (n0 - 1) * (n1 - 1) with hN
  have hcell : ∀ j < N, _ := fun j hj => cell_rounded (q := cellOf n1 (nodeAt xs ys) j) (a := lineAt pert n us vs k) (b := lineAt pert n us vs (k + 1))
    hf hs hpe hsrt (by
      rw [cellOf_val]
      have := hfair _ (cell_split hj).2.2.1 _ (cell_split hj).2.2.2
      rw [ea, eb] at this
      exact this) (hS k hk j hj)
  have ea' : a = valPt (lineAt pert n us vs k) := ea
  have eb' : b = valPt (lineAt pert n us vs (k + 1)) := eb
  rw [← ea', ← eb'] at hcell
  simp only [cellOf_val] at hcell
  set Es : Nat → Fin 4 → ℝ := fun j => cellEdges n0 n1 (flVals x) (flVals y) j with hEs
  have hEd : ∀ j < N, Es j = edgeData n1 (flVals x) (flVals y) (j / (n1 - 1)) (j % (n1 - 1)) := fun j hj => cellEdges_data _ _ hj
  have hne : (List.range N).flatMap (S k) ≠ [] := by
    obtain ⟨i, hi, j, hj, s, hs1, t, ht1, hst⟩ := hsome
    have e1 : (i * (n1 - 1) + j) / (n1 - 1) = i := by
      rw [Nat.add_comm, Nat.add_mul_div_right _ _ (by omega), Nat.div_eq_of_lt hj, Nat.zero_add]
    have e2 : (i * (n1 - 1) + j) % (n1 - 1) = j := by
      rw [Nat.add_comm, Nat.add_mul_mod_self_right, Nat.mod_eq_of_lt hj]
    have := (hcell (i * (n1 - 1) + j) (cell_lt hi hj)).2.2.2
    rw [e1, e2] at this
    intro h
    rw [List.flatMap_eq_nil_iff] at h
    exact this ⟨s, hs1, t, ht1, hst⟩ (h _ (List.mem_range.mpr (cell_lt hi hj)))
  rw [hd' k hk, if_neg hne]
  refine ⟨_, rfl, ?_⟩
  have hsum := flowSum_near hs.rounds n0 n1 x y ((List.range N).flatMap (S k))
  rw [sum_flatMap_range, sum_flatMap_range] at hsum
  have hlen : ((List.range N).flatMap (S k)).length ≤ N := by
    rw [List.length_flatMap]
    have : ∀ m ≤ N, ((List.range m).map fun j => (S k j).length).sum ≤ m := by
      intro m
      induction m with
      | zero => simp
      | succ m ih =>
        intro hm
        rw [List.range_succ, List.map_append, List.sum_append]
        have := ih (by omega)
        have := (hcell m (by omega)).2.2.1
        simp
        omega
    exact this N le_rfl
  have hsz : edgeSize n0 n1 (flVals x) (flVals y) = ∑ j ∈ Finset.range N, size4 (Es j) := by
    unfold edgeSize
    rw [← sum_cells n0 n1 (by omega) (fun i j => ∑ e, |edgeData n1 (flVals x) (flVals y) i j e|)]
    refine Finset.sum_congr rfl fun j hj => ?_
    rw [size4_sum, hEd j (Finset.mem_range.mp hj)]
  have hI : ∑ i ∈ Finset.range (n0 - 1), ∑ j ∈ Finset.range (n1 - 1),
      fieldIntegral (gridQuad n1 (flVals xs) (flVals ys) i j) (edgeData n1 (flVals x) (flVals y) i j) a b =
      ∑ j ∈ Finset.range N, fieldIntegral (gridQuad n1 (flVals xs) (flVals ys) (j / (n1 - 1)) (j % (n1 - 1))) (Es j) a b := by
    rw [← sum_cells n0 n1 (by omega)]
    refine Finset.sum_congr rfl fun j hj => ?_
    rw [hEd j (Finset.mem_range.mp hj)]
  set W := ∑ j ∈ Finset.range N, ((S k j).map fun c => flowDot (fun e => (c.2 e).val) (cellEdges n0 n1 (flVals x) (flVals y) c.1)).sum with hW
  have hmain : |W - ∑ j ∈ Finset.range N, fieldIntegral (gridQuad n1 (flVals xs) (flVals ys) (j / (n1 - 1)) (j % (n1 - 1))) (Es j) a b| ≤
      cellFlowError u β Δ L R * edgeSize n0 n1 (flVals x) (flVals y) := by
    rw [hW, ← Finset.sum_sub_distrib, hsz, Finset.mul_sum]
    refine (Finset.abs_sum_le_sum_abs _ _).trans (Finset.sum_le_sum fun j hj => ?_)
    have hj := Finset.mem_range.mp hj
    refine le_trans (le_of_eq ?_) ((hcell j hj).1 (Es j))
    congr 2
    congr 1
    refine List.map_congr_left fun c hc => ?_
    rw [((hcell j hj).2.1 c hc).1]
  have hA : ∑ j ∈ Finset.range N, ((S k j).map fun c => ∑ e, |(c.2 e).val * cellEdges n0 n1 (flVals x) (flVals y) c.1 e|).sum ≤
      2 * edgeSize n0 n1 (flVals x) (flVals y) := by
    rw [hsz, Finset.mul_sum]
    refine Finset.sum_le_sum fun j hj => ?_
    have hj := Finset.mem_range.mp hj
    obtain ⟨-, hc, hl1, -⟩ := hcell j hj
    have one : ∀ c ∈ S k j, ∑ e, |(c.2 e).val * cellEdges n0 n1 (flVals x) (flVals y) c.1 e| ≤ 2 * size4 (Es j) := by
      intro c hcm
      rw [size4_sum, Finset.mul_sum, (hc c hcm).1]
      refine Finset.sum_le_sum fun e _ => ?_
      rw [abs_mul]
      exact mul_le_mul_of_nonneg_right ((hc c hcm).2 e) (abs_nonneg _)
    have hnn := size4_nonneg (Es j)
    rcases hSk : S k j with _ | ⟨c, l⟩
    · simp; linarith
    · have : l = [] := by rw [hSk] at hl1; simpa using hl1
      subst this
      simpa using one c (by rw [hSk]; simp)
  set A := ∑ j ∈ Finset.range N, ((S k j).map fun c => ∑ e, |(c.2 e).val * cellEdges n0 n1 (flVals x) (flVals y) c.1 e|).sum with hAdef
  have hA0 : 0 ≤ A := Finset.sum_nonneg fun j _ => List.sum_nonneg (by
    intro z hz
    obtain ⟨c, -, rfl⟩ := List.mem_map.mp hz
    exact Finset.sum_nonneg fun _ _ => abs_nonneg _)
  have hdot : dotError u 0 (4 * ((List.range N).flatMap (S k)).length) A ≤ 2 * ((1 + u) ^ (4 * N + 1) - 1) * edgeSize n0 n1 (flVals x) (flVals y) := by
    unfold dotError
    rw [mul_zero, add_zero]
    have p1 : (1 + u) ^ (4 * ((List.range N).flatMap (S k)).length + 1) ≤ (1 + u) ^ (4 * N + 1) := pow_le_pow_right₀ (by linarith) (by omega)
    have p2 : (1 : ℝ) ≤ (1 + u) ^ (4 * N + 1) := one_le_pow₀ (by linarith)
    calc _ ≤ ((1 + u) ^ (4 * N + 1) - 1) * A := mul_le_mul_of_nonneg_right (by linarith) hA0
      _ ≤ ((1 + u) ^ (4 * N + 1) - 1) * (2 * edgeSize n0 n1 (flVals x) (flVals y)) := mul_le_mul_of_nonneg_left hA (by linarith)
      _ = _ := by ring
  rw [hI]
  have := abs_sub_le (flowSum n0 n1 x y ((List.range N).flatMap (S k))).val W
    (∑ j ∈ Finset.range N, fieldIntegral (gridQuad n1 (flVals xs) (flVals ys) (j / (n1 - 1)) (j % (n1 - 1))) (Es j) a b)
  linarith

/-- The integrals of the field of a potential over cells that cover a segment. -/
theorem integral_potential (N : Nat) (Q : Nat → Fin 4 → ℝ × ℝ) (hQ : ∀ k < N, Parallelogram (Q k)) (a b : ℝ × ℝ) (v : Nat → Fin 4 → ℝ) (Φ : ℝ × ℝ → ℝ)
    (hΦ : ∀ k < N, ∀ x, InCell x → Φ (at_ (Q k) x) = bilin (v k) x)
    (hcov : ∀ p ∈ segment ℝ a b, ∃ k < N, p ∈ quadRegion (Q k))
    (honce : ∀ k < N, ∀ l < N, k ≠ l → (insideParams (Q k) a b ∩ insideParams (Q l) a b).Subsingleton) :
    ∑ k ∈ Finset.range N, fieldIntegral (Q k) (edgeDiff (v k)) a b = Φ b - Φ a ∧
    ∀ τ : ℝ, N * τ < 1 → ∃ k < N, ∃ s ∈ insideParams (Q k) a b, ∃ t ∈ insideParams (Q k) a b, τ ≤ |s - t| := by
  classical
  have key : ∀ k : Nat, ∃ lo hi : ℝ, k < N → (insideParams (Q k) a b = ∅) ∨
      (lo ≤ hi ∧ 0 ≤ lo ∧ hi ≤ 1 ∧ insideParams (Q k) a b = Set.Icc lo hi ∧
        fieldIntegral (Q k) (edgeDiff (v k)) a b = Φ (a + hi • (b - a)) - Φ (a + lo • (b - a))) := by
    intro k
    by_cases hk : k < N
    · rcases (insideParams (Q k) a b).eq_empty_or_nonempty with he | hne
      · exact ⟨0, 0, fun _ => Or.inl he⟩
      · obtain ⟨lo, hlo⟩ := (inside_compact (Q k) a b).exists_isLeast hne
        obtain ⟨hi, hhi⟩ := (inside_compact (Q k) a b).exists_isGreatest hne
        have hv : ∀ t ∈ insideParams (Q k) a b, Φ (a + t • (b - a)) = bilin (v k) (coordX (Q k) (a + t • (b - a))) := by
          intro t ht
          obtain ⟨x, hx, ex⟩ := region_at (hQ k hk) ht.2.2
          rw [ex, coordX_at (hQ k hk), hΦ k hk x hx]
        refine ⟨lo, hi, fun _ => Or.inr ⟨hlo.2 hhi.1, hlo.1.1, hhi.1.2.1, inside_icc hlo hhi, ?_⟩⟩
        rw [fieldIntegral_proj _ hlo hhi, projAt_potential, hv _ hlo.1, hv _ hhi.1]
    · exact ⟨0, 0, fun h => absurd h hk⟩
  choose lo hi key using key
  set s := (Finset.range N).filter fun k => insideParams (Q k) a b ≠ ∅ with hs
  have hsk : ∀ k ∈ s, k < N ∧ (lo k ≤ hi k ∧ 0 ≤ lo k ∧ hi k ≤ 1 ∧ insideParams (Q k) a b = Set.Icc (lo k) (hi k) ∧
        fieldIntegral (Q k) (edgeDiff (v k)) a b = Φ (a + hi k • (b - a)) - Φ (a + lo k • (b - a))) := by
    intro k hk
    rw [hs, Finset.mem_filter, Finset.mem_range] at hk
    rcases key k hk.1 with h | h
    · exact absurd h hk.2
    · exact ⟨hk.1, h⟩
  have hcov' : ∀ p : ℝ, 0 < p → p < 1 → ∃ k ∈ s, lo k ≤ p ∧ p ≤ hi k := by
    intro p h0 h1
    obtain ⟨k, hk, hr⟩ := hcov (a + p • (b - a)) (mem_segment_iff.mpr ⟨p, h0.le, h1.le, rfl⟩)
    have hm : p ∈ insideParams (Q k) a b := ⟨h0.le, h1.le, hr⟩
    have hks : k ∈ s := by
      rw [hs, Finset.mem_filter, Finset.mem_range]
      exact ⟨hk, Set.nonempty_iff_ne_empty.mp ⟨p, hm⟩⟩
    refine ⟨k, hks, ?_⟩
    rw [(hsk k hks).2.2.2.2.1] at hm
    exact hm
  have hsum := fun f : ℝ → ℝ => Telescope.sum_intervals f lo hi 1 _ s rfl 0 zero_le_one
    (fun k hk => ⟨(hsk k hk).2.2.1, (hsk k hk).2.1, (hsk k hk).2.2.2.1⟩) hcov' (by
      intro k hk l hl hkl hlt
      have h := honce k (hsk k hk).1 l (hsk l hl).1 hkl
      rw [(hsk k hk).2.2.2.2.1, (hsk l hl).2.2.2.2.1, Set.Icc_inter_Icc] at h
      have := h ⟨le_rfl, hlt.le⟩ ⟨hlt.le, le_rfl⟩
      exact absurd this hlt.ne)
  refine ⟨?_, fun τ hτ => ?_⟩
  · have hsum := hsum fun t => Φ (a + t • (b - a))
    have e0 : a + (0 : ℝ) • (b - a) = a := by simp
    have e1 : a + (1 : ℝ) • (b - a) = b := by simp
    beta_reduce at hsum
    rw [e0, e1] at hsum
    rw [← hsum, hs, Finset.sum_filter]
    refine Finset.sum_congr rfl fun k hk => ?_
    split_ifs with h
    · have : k ∈ s := by rw [hs, Finset.mem_filter]; exact ⟨hk, h⟩
      exact (hsk k this).2.2.2.2.2
    · rw [not_not] at h
      unfold fieldIntegral
      rw [h]
      simp
  · have hone := hsum id
    by_contra hno
    have hlt : ∀ k ∈ s, id (hi k) - id (lo k) ≤ max τ 0 := by
      intro k hk
      by_contra hgt
      obtain ⟨hkN, h1, -, -, h4, -⟩ := hsk k hk
      refine hno ⟨k, hkN, hi k, by rw [h4]; exact ⟨h1, le_rfl⟩, lo k, by rw [h4]; exact ⟨le_rfl, h1⟩, ?_⟩
      rw [abs_of_nonneg (by linarith)]
      exact (le_max_left _ _).trans (not_le.mp hgt).le
    have h2 := Finset.sum_le_sum hlt
    rw [hone, Finset.sum_const, nsmul_eq_mul] at h2
    have h3 : (s.card : ℝ) ≤ N := by
      have : s.card ≤ (Finset.range N).card := Finset.card_filter_le _ _
      rw [Finset.card_range] at this
      exact_mod_cast this
    have h4 := mul_le_mul_of_nonneg_right h3 (le_max_right τ 0)
    simp only [id] at h2
    rcases max_cases τ 0 with ⟨h5, -⟩ | ⟨h5, -⟩ <;> rw [h5] at h2 h4 <;> nlinarith

theorem edgeData_potential {n0 n1 : Nat} {phi : Nat → Nat → ℝ} {x y : List ℝ} (hp : PotentialData n0 n1 phi x y) {k : Nat} (hk : k < (n0 - 1) * (n1 - 1)) :
    edgeData n1 x y (k / (n1 - 1)) (k % (n1 - 1)) = edgeDiff (cellPhi phi (k / (n1 - 1)) (k % (n1 - 1))) := by
  rw [← cellEdges_data _ _ hk, cellEdges_potential hp hk]

/-- **C116**, the numbers on the edges being differences of a potential of which `Φ` is the interpolant: the flow of a segment that is covered by the cells,
no two of which share more than a point of it, is the difference of `Φ` between its ends, up to this error. -/
theorem C116_potential (hf : SolvesLine rnd g u β Δ) (hs : SearchesFinely rnd g u β Δ (flowPointError u L R) L R)
    (hpe : projError u (indexError u β Δ (flowPointError u L R) L R) ≤ 1 / 100) (pert : Nat → Nat → Nat → Fl rnd)
    (srt : List (Fl rnd) → List (Fl rnd)) (hsrt : ∀ l, SortsTo l (srt l)) (n0 n1 : Nat) (h0 : 2 ≤ n0) (h1 : 2 ≤ n1) (hfit : n0 * n1 ≤ 1073741824)
    (xs ys : List (Fl rnd)) (hx : n0 * n1 ≤ xs.length) (hy : n0 * n1 ≤ ys.length) (n : Nat) (hn : 1 ≤ n) (us vs : List (Fl rnd)) (hu : n ≤ us.length)
    (hv : n ≤ vs.length) (phi : Nat → Nat → ℝ) (x y : List (Fl rnd)) (hp : PotentialData n0 n1 phi (flVals x) (flVals y)) (Φ : ℝ × ℝ → ℝ)
    (hΦ : ∀ i < n0 - 1, ∀ j < n1 - 1, ∀ t, InCell t → Φ (pointAt (gridQuad n1 (flVals xs) (flVals ys) i j) t) = bilin (cellPhi phi i j) t)
    (d : List (Fl rnd)) (hd : n - 1 ≤ d.length) :
    ∃ d', flowWith pert g srt [] n0 n1 xs ys n us vs 1 x y d = .ok d' ∧
      ∀ k < n - 1, ∀ a b, a = storedNode pert n us vs k → b = storedNode pert n us vs (k + 1) →
        (∀ p ∈ segment ℝ a b, ∃ i < n0 - 1, ∃ j < n1 - 1, p ∈ quadRegion (gridQuad n1 (flVals xs) (flVals ys) i j)) →
        (∀ i < n0 - 1, ∀ j < n1 - 1, ∀ i' < n0 - 1, ∀ j' < n1 - 1, (i, j) ≠ (i', j') →
          (insideParams (gridQuad n1 (flVals xs) (flVals ys) i j) a b ∩ insideParams (gridQuad n1 (flVals xs) (flVals ys) i' j') a b).Subsingleton) →
        (∀ i < n0 - 1, ∀ j < n1 - 1, FairFlow Δ L R (gridQuad n1 (flVals xs) (flVals ys) i j) a b) →
        ∃ f, d'[k]? = some f ∧
          |f.val - (Φ b - Φ a)| ≤
          (cellFlowError u β Δ L R + 2 * ((1 + u) ^ (4 * ((n0 - 1) * (n1 - 1)) + 1) - 1)) * edgeSize n0 n1 (flVals x) (flVals y) := by
  have hxl : (n0 - 1) * n1 ≤ x.length := by have := hp.lenx; rwa [flVals, List.length_map] at this
  have hyl : n0 * (n1 - 1) ≤ y.length := by have := hp.leny; rwa [flVals, List.length_map] at this
  obtain ⟨d', e, hd'⟩ := C116_integral hf hs hpe pert srt hsrt n0 n1 h0 h1 hfit xs ys hx hy n hn us vs hu hv x y hxl hyl d hd
  refine ⟨d', e, fun k hk a b ea eb hcov honce hfair => ?_⟩
  have hsp : ∀ {k}, k < (n0 - 1) * (n1 - 1) → k / (n1 - 1) < n0 - 1 ∧ k % (n1 - 1) < n1 - 1 := fun hk => (cell_split hk).2.2
  have hdm : ∀ {i j}, j < n1 - 1 → (i * (n1 - 1) + j) / (n1 - 1) = i ∧ (i * (n1 - 1) + j) % (n1 - 1) = j := by
    intro i j hj
    exact ⟨by rw [Nat.add_comm, Nat.add_mul_div_right _ _ (by omega), Nat.div_eq_of_lt hj, Nat.zero_add],
      by rw [Nat.add_comm, Nat.add_mul_mod_self_right, Nat.mod_eq_of_lt hj]⟩
  obtain ⟨hsum, hsome⟩ := integral_potential ((n0 - 1) * (n1 - 1)) (fun j => gridQuad n1 (flVals xs) (flVals ys) (j / (n1 - 1)) (j % (n1 - 1)))
    (fun j hj => fair_parallelogram hs.shape hs.size (hfair _ (hsp hj).1 _ (hsp hj).2).cell) a b
    (fun j => cellPhi phi (j / (n1 - 1)) (j % (n1 - 1))) Φ (fun j hj t ht => hΦ _ (hsp hj).1 _ (hsp hj).2 t ht)
    (by
      intro p hp
      obtain ⟨i, hi, j, hj, hr⟩ := hcov p hp
      refine ⟨i * (n1 - 1) + j, cell_lt hi hj, ?_⟩
      beta_reduce
      rw [(hdm hj).1, (hdm hj).2]
      exact hr)
    (by
      intro i hi j hj hij
      refine honce _ (hsp hi).1 _ (hsp hi).2 _ (hsp hj).1 _ (hsp hj).2 fun he => hij ?_
      simp only [Prod.mk.injEq] at he
      rw [← Nat.div_add_mod' i (n1 - 1), ← Nat.div_add_mod' j (n1 - 1), he.1, he.2])
  obtain ⟨j, hj, s, hs1, t, ht1, hst⟩ := hsome lineTol (by
    have h2 : (n0 - 1) * (n1 - 1) ≤ 1073741824 := (Nat.mul_le_mul (Nat.sub_le _ _) (Nat.sub_le _ _)).trans hfit
    have h3 : (((n0 - 1) * (n1 - 1) : Nat) : ℝ) ≤ 1073741824 := by exact_mod_cast h2
    have h4 := mul_le_mul_of_nonneg_right h3 lineTol_pos.le
    refine h4.trans_lt ?_
    rw [lineTol_val]
    norm_num)
  obtain ⟨f, ef, hfl⟩ := hd' k hk a b ea eb hfair ⟨_, (hsp hj).1, _, (hsp hj).2, s, hs1, t, ht1, hst⟩
  refine ⟨f, ef, ?_⟩
  rw [← hsum]
  rw [← sum_cells n0 n1 (by omega)] at hfl
  refine le_trans (le_of_eq ?_) hfl
  congr 2
  refine Finset.sum_congr rfl fun j hj => ?_
  rw [edgeData_potential hp (Finset.mem_range.mp hj)]

/-! ### Double precision -/

theorem flowPoint_double (h1 : 1 / 100 ≤ L) (h2 : L ≤ 1) :
    0 ≤ flowPointError (2 ^ (-(53 : ℤ))) L 40 ∧ flowPointError (2 ^ (-(53 : ℤ))) L 40 ≤ 14 / 10 ^ 15 := by
  unfold flowPointError linePointError
  rw [lineTol_val]
  norm_num
  constructor <;> linarith

/-- Errors in double precision. -/
theorem slope_double40 (h1 : 1 / 100 ≤ L) (h2 : L ≤ 1) :
    matrixError (2 ^ (-(53 : ℤ))) (2 ^ (-(52 : ℤ))) L 40 ≤ 11 / 10 ^ 14 ∧
      offsetError (2 ^ (-(53 : ℤ))) (flowPointError (2 ^ (-(53 : ℤ))) L 40) L 40 ≤ 7 / 10 ^ 14 ∧ coordError (2 ^ (-(53 : ℤ))) * 40 ≤ 5 / 10 ^ 14 := by
  have hc : coordError (2 ^ (-(53 : ℤ))) * 40 ≤ 5 / 10 ^ 14 := by unfold coordError; norm_num
  have hc0 : 0 ≤ coordError (2 ^ (-(53 : ℤ))) * 40 := by unfold coordError; norm_num
  set c := coordError (2 ^ (-(53 : ℤ))) * 40
  have hs : slopeError (2 ^ (-(53 : ℤ))) L 40 = 2 * c + ((1 + 2 ^ (-(53 : ℤ))) ^ 2 - 1) * (L + 2 * c) := rfl
  obtain ⟨p0, p1⟩ := flowPoint_double h1 h2
  set ρ := flowPointError (2 ^ (-(53 : ℤ))) L 40
  have ho : offsetError (2 ^ (-(53 : ℤ))) ρ L 40 = ρ + c + 2 ^ (-(53 : ℤ)) * (L + ρ + c) := rfl
  have hm : matrixError (2 ^ (-(53 : ℤ))) (2 ^ (-(52 : ℤ))) L 40 =
    slopeError (2 ^ (-(53 : ℤ))) L 40 + 2 ^ (-(52 : ℤ)) * (L + slopeError (2 ^ (-(53 : ℤ))) L 40) := rfl
  have hs1 : slopeError (2 ^ (-(53 : ℤ))) L 40 ≤ 105 / 10 ^ 15 := by rw [hs]; norm_num; norm_num at hc; linarith
  refine ⟨?_, ?_, hc⟩
  · rw [hm]; norm_num; norm_num at hs1; linarith
  · rw [ho]; norm_num; norm_num at hc p1; linarith

theorem index_double40 (h1 : 1 / 100 ≤ L) (h2 : L ≤ 1) :
    indexError (2 ^ (-(53 : ℤ))) (2 ^ (-(52 : ℤ))) (1 / 2) (flowPointError (2 ^ (-(53 : ℤ))) L 40) L 40 ≤ 15 / 10 ^ 13 / L := by
  obtain ⟨m, o, c⟩ := slope_double40 h1 h2
  have hL : 0 < L := by linarith
  unfold indexError
  set A := offsetError (2 ^ (-(53 : ℤ))) (flowPointError (2 ^ (-(53 : ℤ))) L 40) L 40 + matrixError (2 ^ (-(53 : ℤ))) (2 ^ (-(52 : ℤ))) L 40
  have hA : A ≤ 18 / 10 ^ 14 := (add_le_add o m).trans (by norm_num)
  have e : (1 + 2 ^ (-(53 : ℤ))) * (4 * A / (1 / 2 * L)) + 2 ^ (-(53 : ℤ)) = ((1 + 2 ^ (-(53 : ℤ))) * 8 * A + 2 ^ (-(53 : ℤ)) * L) / L := by
    field_simp
    ring
  rw [e]
  refine div_le_div_of_nonneg_right ?_ hL.le
  norm_num
  norm_num at hA
  linarith

theorem searchesFinely_double40 {g : Gels (Fl (nearest 53))} (hg : GelsStable g (2 ^ (-(52 : ℤ)))) (h1 : 1 / 100 ≤ L) (h2 : L ≤ 1) :
    SearchesFinely (nearest 53) g (2 ^ (-(53 : ℤ))) (2 ^ (-(52 : ℤ))) (1 / 2) (flowPointError (2 ^ (-(53 : ℤ))) L 40) L 40 where
  rounds := nearest_rounds 53
  ints := ⟨(nearest_ints 53 (by norm_num)).mono, fun k hk => (nearest_ints 53 (by norm_num)).int k (by omega)⟩
  half := nearest53_consts.half
  unit := by norm_num
  pos := by norm_num
  shape := by norm_num
  size := by linarith
  point := (flowPoint_double h1 h2).1
  stable := hg
  regular := by
    have := (slope_double40 h1 h2).1
    norm_num at this ⊢
    linarith
  found := by
    have hi := index_double40 h1 h2
    have hp := (flowPoint_double h1 h2).2
    have hL : 0 < L := by linarith
    set ρ := flowPointError (2 ^ (-(53 : ℤ))) L 40
    have h3 : L * indexError (2 ^ (-(53 : ℤ))) (2 ^ (-(52 : ℤ))) (1 / 2) ρ L 40 ≤ 15 / 10 ^ 13 := by
      have := mul_le_mul_of_nonneg_left hi hL.le
      rwa [mul_div_cancel₀ _ hL.ne'] at this
    have := (slope_double40 h1 h2).2.2
    norm_num at this h3 hp ⊢
    linarith
  inside := by
    have hp := (flowPoint_double h1 h2).2
    norm_num at hp ⊢
    linarith

theorem pow_small {u : ℝ} (hu : 0 ≤ u) (m : Nat) (hm : m * u ≤ 1 / 2) : (1 + u) ^ m - 1 ≤ 2 * (m * u) := by
  have h1 : (1 + u) ^ m ≤ Real.exp (m * u) := by
    rw [Real.exp_nat_mul]
    exact pow_le_pow_left₀ (by linarith) (by rw [add_comm]; exact Real.add_one_le_exp u) m
  have hx : 0 ≤ m * u := by positivity
  have h2 := Real.exp_bound_div_one_sub_of_interval hx (by linarith)
  have h3 : 1 / (1 - m * u) ≤ 1 + 2 * (m * u) := by
    rw [div_le_iff₀ (by linarith)]
    nlinarith
  linarith

/-- The error in double precision. -/
theorem flow_double (h1 : 1 / 100 ≤ L) (h2 : L ≤ 1) :
    projError (2 ^ (-(53 : ℤ))) (indexError (2 ^ (-(53 : ℤ))) (2 ^ (-(52 : ℤ))) (1 / 2) (flowPointError (2 ^ (-(53 : ℤ))) L 40) L 40) ≤ 1 / 100 ∧
    cellFlowError (2 ^ (-(53 : ℤ))) (2 ^ (-(52 : ℤ))) (1 / 2) L 40 ≤ 3 / 10 ^ 11 / L := by
  have hi := index_double40 h1 h2
  have hL : 0 < L := by linarith
  have hinv : 1 ≤ 1 / L := by rw [le_div_iff₀ hL]; linarith
  have hinv' : 1 / L ≤ 100 := by rw [div_le_iff₀ hL]; linarith
  have e1 : 15 / 10 ^ 13 / L = 15 / 10 ^ 13 * (1 / L) := by ring
  have e2 : 3 / 10 ^ 11 / L = 3 / 10 ^ 11 * (1 / L) := by ring
  unfold cellFlowError projError
  rw [lineTol_val, e2]
  rw [e1] at hi
  constructor
  · norm_num at hi hinv hinv' ⊢
    linarith
  · norm_num at hi hinv hinv' ⊢
    linarith

theorem flowTotal_double (h1 : 1 / 100 ≤ L) (h2 : L ≤ 1) {n0 n1 : Nat} (hn0 : 2 ≤ n0) (hn1 : 2 ≤ n1) (hfit : n0 * n1 ≤ 1073741824) :
    cellFlowError (2 ^ (-(53 : ℤ))) (2 ^ (-(52 : ℤ))) (1 / 2) L 40 + 2 * ((1 + 2 ^ (-(53 : ℤ))) ^ (4 * ((n0 - 1) * (n1 - 1)) + 1) - 1) ≤
      3 / 10 ^ 11 / L + 3 / 10 ^ 15 * ((n0 - 1) * (n1 - 1) : Nat) := by
  have hN : (n0 - 1) * (n1 - 1) ≤ 1073741824 := (Nat.mul_le_mul (Nat.sub_le _ _) (Nat.sub_le _ _)).trans hfit
  have hN1 : 1 ≤ (n0 - 1) * (n1 - 1) := Nat.mul_pos (by omega) (by omega)
  set N := (n0 - 1) * (n1 - 1)
  have hN' : (N : ℝ) ≤ 1073741824 := by exact_mod_cast hN
  have hN1' : (1 : ℝ) ≤ N := by exact_mod_cast hN1
  have hp := pow_small (u := 2 ^ (-(53 : ℤ))) (by norm_num) (4 * N + 1) (by push_cast; norm_num; linarith)
  have h3 : (2 : ℝ) * (2 * (((4 * N + 1 : Nat) : ℝ) * 2 ^ (-(53 : ℤ)))) ≤ 3 / 10 ^ 15 * N := by
    push_cast
    norm_num
    linarith
  have := (flow_double h1 h2).2
  have h4 := mul_le_mul_of_nonneg_left hp (show (0 : ℝ) ≤ 2 by norm_num)
  exact add_le_add this (h4.trans h3)

theorem edgeSize_nonneg (n0 n1 : Nat) (x y : List ℝ) : 0 ≤ edgeSize n0 n1 x y :=
  Finset.sum_nonneg fun _ _ => Finset.sum_nonneg fun _ _ => Finset.sum_nonneg fun _ _ => abs_nonneg _

/-- **C116** in double precision, with a solver that is backward stable with the constant 2^-52, cells and segments of size `L` (0.01 to 1) at most and
coordinates up to 40: the error of a flow is at most `3e-11/L` plus 3e-15 for each cell, times the numbers on the edges. -/
theorem C116_double (g : Gels (Fl (nearest 53))) (hg : GelsStable g (2 ^ (-(52 : ℤ)))) (hL1 : 1 / 100 ≤ L) (hL2 : L ≤ 1)
    (pert : Nat → Nat → Nat → Fl (nearest 53)) (srt : List (Fl (nearest 53)) → List (Fl (nearest 53))) (hsrt : ∀ l, SortsTo l (srt l)) (n0 n1 : Nat)
    (h0 : 2 ≤ n0) (h1 : 2 ≤ n1) (hfit : n0 * n1 ≤ 1073741824) (xs ys : List (Fl (nearest 53))) (hx : n0 * n1 ≤ xs.length) (hy : n0 * n1 ≤ ys.length)
    (n : Nat) (hn : 1 ≤ n) (us vs : List (Fl (nearest 53))) (hu : n ≤ us.length) (hv : n ≤ vs.length) (x y : List (Fl (nearest 53)))
    (hxl : (n0 - 1) * n1 ≤ x.length) (hyl : n0 * (n1 - 1) ≤ y.length) (d : List (Fl (nearest 53))) (hd : n - 1 ≤ d.length) :
    ∃ d', flowWith pert g srt [] n0 n1 xs ys n us vs 1 x y d = .ok d' ∧
      ∀ k < n - 1, ∀ a b, a = storedNode pert n us vs k → b = storedNode pert n us vs (k + 1) →
        (∀ i < n0 - 1, ∀ j < n1 - 1, FairFlow (1 / 2) L 40 (gridQuad n1 (flVals xs) (flVals ys) i j) a b) →
        (∃ i < n0 - 1, ∃ j < n1 - 1, ∃ s ∈ insideParams (gridQuad n1 (flVals xs) (flVals ys) i j) a b,
          ∃ t ∈ insideParams (gridQuad n1 (flVals xs) (flVals ys) i j) a b, lineTol ≤ |s - t|) →
        ∃ f, d'[k]? = some f ∧
          |f.val - ∑ i ∈ Finset.range (n0 - 1), ∑ j ∈ Finset.range (n1 - 1),
            fieldIntegral (gridQuad n1 (flVals xs) (flVals ys) i j) (edgeData n1 (flVals x) (flVals y) i j) a b| ≤
          (3 / 10 ^ 11 / L + 3 / 10 ^ 15 * ((n0 - 1) * (n1 - 1) : Nat)) * edgeSize n0 n1 (flVals x) (flVals y) := by
  obtain ⟨d', e, hd'⟩ := C116_integral (solvesLine_double hg) (searchesFinely_double40 hg hL1 hL2) (flow_double hL1 hL2).1 pert srt hsrt n0 n1 h0 h1 hfit
    xs ys hx hy n hn us vs hu hv x y hxl hyl d hd
  refine ⟨d', e, fun k hk a b ea eb hfair hsome => ?_⟩
  obtain ⟨f, ef, hfl⟩ := hd' k hk a b ea eb hfair hsome
  exact ⟨f, ef, hfl.trans (mul_le_mul_of_nonneg_right (flowTotal_double hL1 hL2 h0 h1 hfit) (edgeSize_nonneg _ _ _ _))⟩

/-- **C116** for a potential, in double precision. -/
theorem C116_potential_double (g : Gels (Fl (nearest 53))) (hg : GelsStable g (2 ^ (-(52 : ℤ)))) (hL1 : 1 / 100 ≤ L) (hL2 : L ≤ 1)
    (pert : Nat → Nat → Nat → Fl (nearest 53)) (srt : List (Fl (nearest 53)) → List (Fl (nearest 53))) (hsrt : ∀ l, SortsTo l (srt l)) (n0 n1 : Nat)
    (h0 : 2 ≤ n0) (h1 : 2 ≤ n1) (hfit : n0 * n1 ≤ 1073741824) (xs ys : List (Fl (nearest 53))) (hx : n0 * n1 ≤ xs.length) (hy : n0 * n1 ≤ ys.length)
    (n : Nat) (hn : 1 ≤ n) (us vs : List (Fl (nearest 53))) (hu : n ≤ us.length) (hv : n ≤ vs.length) (phi : Nat → Nat → ℝ)
    (x y : List (Fl (nearest 53))) (hp : PotentialData n0 n1 phi (flVals x) (flVals y)) (Φ : ℝ × ℝ → ℝ)
    (hΦ : ∀ i < n0 - 1, ∀ j < n1 - 1, ∀ t, InCell t → Φ (pointAt (gridQuad n1 (flVals xs) (flVals ys) i j) t) = bilin (cellPhi phi i j) t)
    (d : List (Fl (nearest 53))) (hd : n - 1 ≤ d.length) :
    ∃ d', flowWith pert g srt [] n0 n1 xs ys n us vs 1 x y d = .ok d' ∧
      ∀ k < n - 1, ∀ a b, a = storedNode pert n us vs k → b = storedNode pert n us vs (k + 1) →
        (∀ p ∈ segment ℝ a b, ∃ i < n0 - 1, ∃ j < n1 - 1, p ∈ quadRegion (gridQuad n1 (flVals xs) (flVals ys) i j)) →
        (∀ i < n0 - 1, ∀ j < n1 - 1, ∀ i' < n0 - 1, ∀ j' < n1 - 1, (i, j) ≠ (i', j') →
          (insideParams (gridQuad n1 (flVals xs) (flVals ys) i j) a b ∩ insideParams (gridQuad n1 (flVals xs) (flVals ys) i' j') a b).Subsingleton) →
        (∀ i < n0 - 1, ∀ j < n1 - 1, FairFlow (1 / 2) L 40 (gridQuad n1 (flVals xs) (flVals ys) i j) a b) →
        ∃ f, d'[k]? = some f ∧
          |f.val - (Φ b - Φ a)| ≤ (3 / 10 ^ 11 / L + 3 / 10 ^ 15 * ((n0 - 1) * (n1 - 1) : Nat)) * edgeSize n0 n1 (flVals x) (flVals y) := by
  obtain ⟨d', e, hd'⟩ := C116_potential (solvesLine_double hg) (searchesFinely_double40 hg hL1 hL2) (flow_double hL1 hL2).1 pert srt hsrt n0 n1 h0 h1 hfit
    xs ys hx hy n hn us vs hu hv phi x y hp Φ hΦ d hd
  refine ⟨d', e, fun k hk a b ea eb hcov honce hfair => ?_⟩
  obtain ⟨f, ef, hfl⟩ := hd' k hk a b ea eb hcov honce hfair
  exact ⟨f, ef, hfl.trans (mul_le_mul_of_nonneg_right (flowTotal_double hL1 hL2 h0 h1 hfit) (edgeSize_nonneg _ _ _ _))⟩

/-! ### A case meeting the hypotheses -/

/-- Two cells, the squares [0, 1] x [0, 1] and [1, 2] x [0, 1]. -/
def twoX : List (Fl rnd) := [⟨0⟩, ⟨0⟩, ⟨1⟩, ⟨1⟩, ⟨2⟩, ⟨2⟩]
def twoY : List (Fl rnd) := [⟨0⟩, ⟨1⟩, ⟨0⟩, ⟨1⟩, ⟨0⟩, ⟨1⟩]

/-- The unit square to the right of `c`. -/
def unitBox (c : ℝ) (e : Fin 4) : ℝ × ℝ :=
  match e with
  | 0 => (c, 0)
  | 1 => (c + 1, 0)
  | 2 => (c + 1, 1)
  | 3 => (c, 1)

theorem two_cell {i : Nat} (hi : i < 2) : gridQuad 2 (flVals (twoX : List (Fl rnd))) (flVals (twoY : List (Fl rnd))) i 0 =
    unitBox i := by
  funext c
  interval_cases i <;> fin_cases c <;> norm_num [unitBox, gridQuad, twoX, twoY, flVals, nodePlace, cellNode]

theorem lt_dist_fst {c : ℝ} {p q : ℝ × ℝ} (h : c < |p.1 - q.1|) : c < dist p q := h.trans_le (by rw [abs_sub_comm]; exact (abs_sub_le_dist p q).1)
theorem lt_dist_snd {c : ℝ} {p q : ℝ × ℝ} (h : c < |p.2 - q.2|) : c < dist p q := h.trans_le (by rw [abs_sub_comm]; exact (abs_sub_le_dist p q).2)

theorem mem_box {c : ℝ} {p : ℝ × ℝ} : p ∈ quadRegion (unitBox c) ↔ (c ≤ p.1 ∧ p.1 ≤ c + 1) ∧ 0 ≤ p.2 ∧ p.2 ≤ 1 := by
  have hc : Ccw (unitBox c) := by
    refine ⟨fin4.mpr ⟨?_, ?_, ?_, ?_⟩, ?_⟩
    · show 0 ≤ cross (c, 0) (c + 1, 0) (c + 1, 1); norm_num [cross]
    · show 0 ≤ cross (c + 1, 0) (c + 1, 1) (c, 1); norm_num [cross]
    · show 0 ≤ cross (c + 1, 1) (c, 1) (c, 0); norm_num [cross]
    · show 0 ≤ cross (c, 1) (c, 0) (c + 1, 0); norm_num [cross]
    · show 0 < cross (c + 1, 0) (c + 1, 1) (c, 1) + cross (c, 1) (c, 0) (c + 1, 0); norm_num [cross]
  rw [region_iff_ccw hc, fin4]
  show (0 ≤ cross (c, 0) (c + 1, 0) p ∧ 0 ≤ cross (c + 1, 0) (c + 1, 1) p ∧ 0 ≤ cross (c + 1, 1) (c, 1) p ∧ 0 ≤ cross (c, 1) (c, 0) p) ↔ _
  norm_num [cross]
  constructor
  · rintro ⟨h1, h2, h3, h4⟩; refine ⟨⟨?_, ?_⟩, ?_, ?_⟩ <;> linarith
  · rintro ⟨⟨h1, h2⟩, h3, h4⟩; refine ⟨?_, ?_, ?_, ?_⟩ <;> linarith

theorem next0 : (0 + 1 : Fin 4) = 1 := rfl
theorem next1 : (1 + 1 : Fin 4) = 2 := rfl
theorem next2 : (2 + 1 : Fin 4) = 3 := rfl
theorem next3 : (3 + 1 : Fin 4) = 0 := rfl

theorem two_fair {i : Nat} (hi : i < 2) : FairFlow (1 / 2) 1 40 (unitBox i) (1 / 2, 1 / 2) (3 / 2, 1 / 2) where
  cell := by
    refine ⟨?_, ?_, ?_, ?_, ?_⟩
    · ext <;> norm_num [unitBox, next0, next1, next2, next3]
      ring
    · norm_num [unitBox, next0, next1, next2, next3]
    · norm_num [unitBox, next0, next1, next2, next3]
    · norm_num [area2, unitBox, next0, next1, next2, next3]
    · intro c
      interval_cases i <;> fin_cases c <;> norm_num [unitBox, next0, next1, next2, next3]
  size := by
    intro c c'
    rw [Prod.dist_eq, max_le_iff, Real.dist_eq, Real.dist_eq]
    fin_cases c <;> fin_cases c' <;> norm_num [unitBox, next0, next1, next2, next3]
  length := by
    rw [Prod.dist_eq, max_le_iff, Real.dist_eq, Real.dist_eq]
    norm_num
  proper := by norm_num
  start := by norm_num
  ends := by
    have hl := lineTol_val
    rintro p (rfl | rfl)
    · interval_cases i
      · left; rw [mem_box]; norm_num
      · right
        refine ⟨3, Or.inl ⟨?_, ?_, ?_⟩⟩
        · intro c; fin_cases c <;> norm_num [area2, unitBox, next0, next1, next2, next3]
        · rw [hl]; norm_num [area2, unitBox, next0, next1, next2, next3]
        · rw [hl]; norm_num [area2, unitBox, next0, next1, next2, next3]
    · interval_cases i
      · right
        refine ⟨1, Or.inl ⟨?_, ?_, ?_⟩⟩
        · intro c; fin_cases c <;> norm_num [area2, unitBox, next0, next1, next2, next3]
        · rw [hl]; norm_num [area2, unitBox, next0, next1, next2, next3]
        · rw [hl]; norm_num [area2, unitBox, next0, next1, next2, next3]
      · left; rw [mem_box]; norm_num
  edges := by
    have hl := lineTol_val
    refine fin4.mpr ⟨?_, ?_, ?_, ?_⟩
    · right
      intro s t _ _ _ _
      apply lt_dist_snd
      rw [hl]
      norm_num [unitBox, next0, next1, next2, next3]
    · interval_cases i
      · left
        refine ⟨by norm_num [turn, unitBox, next0, next1, next2, next3], (1, 1 / 2), ?_, ?_⟩
        · rw [mem_segment_iff]; exact ⟨1 / 2, by norm_num, by norm_num, by norm_num [unitBox, next0, next1, next2, next3]⟩
        · rw [mem_segment_iff]; exact ⟨1 / 2, by norm_num, by norm_num, by norm_num [unitBox, next0, next1, next2, next3]⟩
      · right
        intro s t _ _ h1 h2
        apply lt_dist_fst
        rw [hl] at h1 h2 ⊢
        norm_num [unitBox, next0, next1, next2, next3] at h1 h2 ⊢
        rw [lt_abs]; left; linarith
    · right
      intro s t _ _ _ _
      apply lt_dist_snd
      rw [hl]
      norm_num [unitBox, next0, next1, next2, next3]
    · interval_cases i
      · right
        intro s t _ _ h1 h2
        apply lt_dist_fst
        rw [hl] at h1 h2 ⊢
        norm_num [unitBox, next0, next1, next2, next3] at h1 h2 ⊢
        rw [lt_abs]; right; linarith
      · left
        refine ⟨by norm_num [turn, unitBox, next0, next1, next2, next3], (1, 1 / 2), ?_, ?_⟩
        · rw [mem_segment_iff]; exact ⟨1 / 2, by norm_num, by norm_num, by norm_num [unitBox, next0, next1, next2, next3]⟩
        · rw [mem_segment_iff]; exact ⟨1 / 2, by norm_num, by norm_num, by norm_num [unitBox, next0, next1, next2, next3]⟩

/-- From (1/2, 1/2) to (3/2, 1/2), so through both cells, with the potential `x + 2 y`: the flow is 1, up to 1e-9. -/
example : ∃ d' f, flowWith (fun _ _ _ => (⟨0⟩ : Fl (nearest 53))) (nearGels (nearest 53)) lamSort [] 3 2 twoX twoY 2 [⟨1 / 2⟩, ⟨3 / 2⟩] [⟨1 / 2⟩, ⟨1 / 2⟩] 1
    [⟨1⟩, ⟨1⟩, ⟨1⟩, ⟨1⟩] [⟨2⟩, ⟨2⟩, ⟨2⟩] [⟨7⟩] = .ok d' ∧ d'[0]? = some f ∧ |f.val - 1| ≤ 1 / 10 ^ 9 := by
  have hh : nearest 53 (1 / 2) = 1 / 2 := nearest53_consts.half
  have h32 : nearest 53 (3 / 2) = 3 / 2 := by
    have := nearest_exact (p := 53) (m := 3) (k := -1) (by norm_num)
    norm_num at this ⊢
    exact this
  obtain ⟨d', e, hd'⟩ := C116_potential_double (L := 1) (nearGels (nearest 53)) nearGels_double (by norm_num) (by norm_num) (fun _ _ _ => ⟨0⟩) lamSort
    lamSort_ok 3 2 (by norm_num) (by norm_num) (by norm_num) twoX twoY (by simp [twoX]) (by simp [twoY]) 2 (by norm_num) [⟨1 / 2⟩, ⟨3 / 2⟩]
    [⟨1 / 2⟩, ⟨1 / 2⟩] (by simp) (by simp) (fun i j => (i : ℝ) + 2 * j) [⟨1⟩, ⟨1⟩, ⟨1⟩, ⟨1⟩] [⟨2⟩, ⟨2⟩, ⟨2⟩]
    ⟨by simp [flVals], by simp [flVals], by
      intro i j hi hj
      have hi : i < 2 := hi
      interval_cases i <;> interval_cases j <;> norm_num [xEdge, flVals], by
      intro i j hi hj
      have hj : j < 1 := hj
      interval_cases i <;> interval_cases j <;> norm_num [yEdge, flVals]⟩ (fun p => p.1 + 2 * p.2)
    (by
      intro i hi j hj t _
      have hi : i < 2 := hi
      obtain rfl : j = 0 := by omega
      rw [two_cell hi]
      norm_num [unitBox, pointAt, bilin, cellPhi, cellNode]
      ring) [⟨7⟩] (by simp)
  obtain ⟨f, ef, hfl⟩ := hd' 0 (by norm_num) (1 / 2, 1 / 2) (3 / 2, 1 / 2)
    (by
      show _ = (nearest 53 (1 / 2 + 0), nearest 53 (1 / 2 + 0))
      rw [add_zero, hh])
    (by
      show _ = (nearest 53 (3 / 2 + 0), nearest 53 (1 / 2 + 0))
      rw [add_zero, add_zero, hh, h32])
    (by
      intro p hp
      obtain ⟨s, h0, h1, rfl⟩ := mem_segment_iff.mp hp
      by_cases hs : s ≤ 1 / 2
      · refine ⟨0, by norm_num, 0, by norm_num, ?_⟩
        rw [two_cell (by norm_num), mem_box]
        norm_num
        constructor <;> linarith
      · refine ⟨1, by norm_num, 0, by norm_num, ?_⟩
        rw [two_cell (by norm_num), mem_box]
        norm_num
        constructor <;> linarith)
    (by
      intro i hi j hj i' hi' j' hj' hne s hs t ht
      have hi : i < 2 := hi
      have hi' : i' < 2 := hi'
      obtain rfl : j = 0 := by omega
      obtain rfl : j' = 0 := by omega
      rw [two_cell hi, two_cell hi'] at hs ht
      obtain ⟨⟨-, -, s1⟩, -, -, s2⟩ := hs
      obtain ⟨⟨-, -, t1⟩, -, -, t2⟩ := ht
      rw [mem_box] at s1 s2 t1 t2
      interval_cases i <;> interval_cases i' <;> first | exact absurd rfl hne | (norm_num at s1 s2 t1 t2; linarith))
    (by
      intro i hi j hj
      have hi : i < 2 := hi
      obtain rfl : j = 0 := by omega
      rw [two_cell hi]
      exact two_fair hi)
  refine ⟨d', f, e, ef, ?_⟩
  have hsz : edgeSize 3 2 (flVals ([⟨1⟩, ⟨1⟩, ⟨1⟩, ⟨1⟩] : List (Fl (nearest 53)))) (flVals ([⟨2⟩, ⟨2⟩, ⟨2⟩] : List (Fl (nearest 53)))) = 12 := by
    norm_num [edgeSize, Finset.sum_range_succ, Fin.sum_univ_four, edgeData, flVals, xEdge, yEdge]
  rw [hsz] at hfl
  norm_num at hfl ⊢
  linarith

end Sg.Props
