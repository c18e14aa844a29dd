import Verif.Proof.FlowTurn
import Verif.Props.FlowReverse
/-
Property C91 on cells of any convex shape: the flow through a segment changes sign with the direction of the segment, for all data, and
the flow of a potential is the sum of the flows of the pieces.
`g` is the linear algebra library, `srt` is `std::sort` and `pert` the perturbation of the nodes of the line.
-/
namespace Sg.Props
open Sg Sg.FlowInterp Sg.QuadIntersect Sg.QuadFlows Sg.LinearSolve Sg.Triangulate Sg.FindPoint Sg.QuadLine Sg.Spec

theorem met_stored {g : Gels ℝ} (hg : GelsContract g) {srt : List ℝ → List ℝ} (hsrt : ∀ l, SortsTo l (srt l)) {n0 n1 : Nat} {xs ys : List ℝ}
    (hcv : ∀ i < n0 - 1, ∀ j < n1 - 1, ConvexQuad (gridQuad n1 xs ys i j)) {a b : ℝ × ℝ} (hm : MetSegment n0 n1 xs ys a b)
    {S : Nat → List (Nat × (Fin 4 → ℝ))}
    (hS : ∀ j < (n0 - 1) * (n1 - 1), CellSpec g srt (gridQuad n1 xs ys (j / (n1 - 1)) (j % (n1 - 1))) a b j (S j)) :
    (List.range ((n0 - 1) * (n1 - 1))).flatMap S ≠ [] := by
  obtain ⟨i, hi, j, hj, s, hs, t, ht, hst⟩ := hm.met
  have hlt : i * (n1 - 1) + j < (n0 - 1) * (n1 - 1) := FlowInterp.cell_lt hi hj
  have hd : (i * (n1 - 1) + j) / (n1 - 1) = i := by
    rw [Nat.mul_comm, Nat.mul_add_div (by omega), Nat.div_eq_of_lt hj, Nat.add_zero]
  have hm' : (i * (n1 - 1) + j) % (n1 - 1) = j := by
    rw [Nat.mul_comm, Nat.mul_add_mod, Nat.mod_eq_of_lt hj]
  have h1 := hS _ hlt
  rw [hd, hm'] at h1
  have := cell_stored hg hsrt (hcv i hi j hj) h1 hs ht hst
  intro he
  rw [List.flatMap_eq_nil_iff] at he
  exact this (he _ (List.mem_range.mpr hlt))

/-- **C91**, in real numbers, cells of any convex shape, any edge data: if the nodes of a second line (as stored) are those of the first in
reverse order, the flows of its segments are those of the first, in reverse order and with the opposite sign. -/
theorem C91_reverse_convex_partial (pert pert' : Nat → Nat → Nat → ℝ) (g : Gels ℝ) (hg : GelsContract g) (srt : List ℝ → List ℝ)
    (hsrt : ∀ l, SortsTo l (srt l)) (n0 n1 : Nat) (h0 : 2 ≤ n0) (h1 : 2 ≤ n1) (hf : n0 * n1 ≤ 1073741824) (xs ys : List ℝ)
    (hx : n0 * n1 ≤ xs.length) (hy : n0 * n1 ≤ ys.length)
    (hcv : ∀ i < n0 - 1, ∀ j < n1 - 1, ConvexQuad (gridQuad n1 xs ys i j))
    (n : Nat) (hn : 1 ≤ n) (us vs us' vs' : List ℝ) (hu : n ≤ us.length) (hv : n ≤ vs.length) (hu' : n ≤ us'.length) (hv' : n ≤ vs'.length)
    (hrev : ∀ k < n, movedNode pert' n us' vs' k = movedNode pert n us vs (n - 1 - k)) (x y : List ℝ)
    (hxl : (n0 - 1) * n1 ≤ x.length) (hyl : n0 * (n1 - 1) ≤ y.length) (d e : List ℝ) (hd : n - 1 ≤ d.length) (he : n - 1 ≤ e.length) :
    ∃ d' e', flowWith pert g srt [] n0 n1 xs ys n us vs 1 x y d = .ok d' ∧
      flowWith pert' g srt [] n0 n1 xs ys n us' vs' 1 x y e = .ok e' ∧
      ∀ k < n - 1, ∀ a b, a = movedNode pert n us vs k → b = movedNode pert n us vs (k + 1) →
        MetSegment n0 n1 xs ys a b → MetSegment n0 n1 xs ys b a → ∃ v, d'[k]? = some v ∧ e'[n - 2 - k]? = some (-v) := by
  obtain ⟨S, hS, hD⟩ := flow_data pert g hg.sizes srt n0 n1 h0 h1 hf xs ys hx hy n hn us vs hu hv
  obtain ⟨T, hT, hE⟩ := flow_data pert' g hg.sizes srt n0 n1 h0 h1 hf xs ys hx hy n hn us' vs' hu' hv'
  obtain ⟨d', hd', -, -, hdv⟩ := hD x y hxl hyl d hd
  obtain ⟨e', he', -, -, hev⟩ := hE x y hxl hyl e he
  refine ⟨d', e', hd', he', fun k hk a b ea eb m m' => ?_⟩
  have hTk := hT (n - 2 - k) (by omega)
  have e1 : movedNode pert' n us' vs' (n - 2 - k) = b := by rw [hrev _ (by omega), eb]; congr 1; omega
  have e2 : movedNode pert' n us' vs' (n - 2 - k + 1) = a := by rw [hrev _ (by omega), ea]; congr 1; omega
  rw [e1, e2] at hTk
  have hSk := hS k hk
  rw [← ea, ← eb] at hSk
  have n1' := met_stored hg hsrt hcv m hSk
  have n2' := met_stored hg hsrt hcv m' hTk
  have hd1 := hdv k hk
  have he1 := hev (n - 2 - k) (by omega)
  rw [if_neg n1'] at hd1
  rw [if_neg n2'] at he1
  refine ⟨_, hd1, he1.trans ?_⟩
  congr 1
  rw [← Finset.sum_neg_distrib]
  refine Finset.sum_congr rfl fun j hj => ?_
  rw [Finset.mem_range] at hj
  obtain ⟨-, -, c1, c2⟩ := FlowInterp.cell_split hj
  exact cell_turn hg hsrt (hcv _ c1 _ c2) (m.clear _ c1 _ c2) (m'.clear _ c1 _ c2) (hSk j hj) (hTk j hj) _

/-- **C91**, in real numbers, cells of any convex shape, data that are the differences of a potential: if a node is inserted on segment `m`
of a line (as stored), the flow of that segment is the sum of the flows of the two pieces, and the flows of the other segments do not
change. -/
theorem C91_split_convex_partial (pert pert' : Nat → Nat → Nat → ℝ) (g : Gels ℝ) (hg : GelsContract g) (srt : List ℝ → List ℝ)
    (hsrt : ∀ l, SortsTo l (srt l)) (n0 n1 : Nat) (h0 : 2 ≤ n0) (h1 : 2 ≤ n1) (hf : n0 * n1 ≤ 1073741824) (xs ys : List ℝ)
    (hx : n0 * n1 ≤ xs.length) (hy : n0 * n1 ≤ ys.length)
    (hcv : ∀ i < n0 - 1, ∀ j < n1 - 1, ConvexQuad (gridQuad n1 xs ys i j))
    (n : Nat) (us vs us' vs' : List ℝ) (hu : n ≤ us.length) (hv : n ≤ vs.length) (hu' : n + 1 ≤ us'.length) (hv' : n + 1 ≤ vs'.length)
    (m : Nat) (hm : m + 1 < n) (s : ℝ) (hs0 : 0 ≤ s) (hs1 : s ≤ 1)
    (hlo : ∀ k ≤ m, movedNode pert' (n + 1) us' vs' k = movedNode pert n us vs k)
    (hmid : movedNode pert' (n + 1) us' vs' (m + 1) =
      movedNode pert n us vs m + s • (movedNode pert n us vs (m + 1) - movedNode pert n us vs m))
    (hhi : ∀ k, m + 1 ≤ k → k < n → movedNode pert' (n + 1) us' vs' (k + 1) = movedNode pert n us vs k)
    (phi : Nat → Nat → ℝ) (x y : List ℝ) (hphi : PotentialData n0 n1 phi x y) (d e : List ℝ) (hd : n - 1 ≤ d.length) (he : n ≤ e.length)
    (hmet : ∀ k < n - 1, MetSegment n0 n1 xs ys (movedNode pert n us vs k) (movedNode pert n us vs (k + 1)))
    (hmet' : ∀ k < n, MetSegment n0 n1 xs ys (movedNode pert' (n + 1) us' vs' k) (movedNode pert' (n + 1) us' vs' (k + 1))) :
    ∃ d' e', flowWith pert g srt [] n0 n1 xs ys n us vs 1 x y d = .ok d' ∧
      flowWith pert' g srt [] n0 n1 xs ys (n + 1) us' vs' 1 x y e = .ok e' ∧
      (∃ v w, e'[m]? = some v ∧ e'[m + 1]? = some w ∧ d'[m]? = some (v + w)) ∧
      (∀ k < m, e'[k]? = d'[k]?) ∧ (∀ k, m < k → k < n - 1 → e'[k + 1]? = d'[k]?) := by
  obtain ⟨S, hS, hD⟩ := flow_once pert g hg.sizes srt n0 n1 h0 h1 hf xs ys hx hy n (by omega) us vs hu hv
  obtain ⟨T, hT, hE⟩ := flow_once pert' g hg.sizes srt n0 n1 h0 h1 hf xs ys hx hy (n + 1) (by omega) us' vs' hu' hv'
  obtain ⟨d', hd', -, -, hdv⟩ := hD phi x y hphi d hd
  obtain ⟨e', he', -, -, hev⟩ := hE phi x y hphi e he
  have hD' := fun k (hk : k < n - 1) => (hdv k hk).trans (if_neg (met_stored hg hsrt hcv (hmet k hk) (hS k hk)))
  have hE' := fun k (hk : k < n) => (hev k hk).trans (if_neg (met_stored hg hsrt hcv (hmet' k hk) (hT k hk)))
  -- a segment that both lines have
  have same : ∀ k k', k < n - 1 → k' < n → movedNode pert' (n + 1) us' vs' k' = movedNode pert n us vs k →
      movedNode pert' (n + 1) us' vs' (k' + 1) = movedNode pert n us vs (k + 1) → e'[k']? = d'[k]? := by
    intro k k' hk hk' e1 e2
    rw [hD' k hk, hE' k' hk']
    congr 1
    refine Finset.sum_congr rfl fun j hj => ?_
    rw [Finset.mem_range] at hj
    obtain ⟨-, -, c1, c2⟩ := FlowInterp.cell_split hj
    have hTk := hT k' hk' j hj
    rw [e1, e2] at hTk
    exact cell_repeat hg hsrt (hcv _ c1 _ c2) ((hmet k hk).clear _ c1 _ c2) (hS k hk j hj) hTk _
  refine ⟨d', e', hd', he', ⟨_, _, hE' m (by omega), hE' (m + 1) (by omega), ?_⟩, fun k hk => ?_, fun k hk hk' => ?_⟩
  · rw [hD' m (by omega), ← Finset.sum_add_distrib]
    congr 1
    refine Finset.sum_congr rfl fun j hj => ?_
    rw [Finset.mem_range] at hj
    obtain ⟨-, -, c1, c2⟩ := FlowInterp.cell_split hj
    have t1 := hT m (by omega) j hj
    have t2 := hT (m + 1) (by omega) j hj
    have m1 := (hmet' m (by omega)).clear _ c1 _ c2
    have m2 := (hmet' (m + 1) (by omega)).clear _ c1 _ c2
    rw [hlo m le_rfl, hmid] at t1 m1
    rw [hmid, hhi (m + 1) le_rfl (by omega)] at t2 m2
    exact cell_cut hg hsrt (hcv _ c1 _ c2) hs0 hs1 ((hmet m (by omega)).clear _ c1 _ c2) m1 m2 (hS m (by omega) j hj) t1 t2 _
  · exact same k k (by omega) (by omega) (hlo k hk.le) (hlo (k + 1) hk)
  · exact same k (k + 1) hk' (by omega) (hhi k hk (by omega)) (hhi (k + 1) (by omega) (by omega))

/-! ### A case: one cell that is no parallelogram and no trapezoid -/

/-- The corners (0, 0), (4, 0), (6, 6), (0, 4). -/
def zGeneral : Fin 4 → ℤ × ℤ := ![(0, 0), (4, 0), (6, 6), (0, 4)]

theorem general_cell : ∀ i < 1, ∀ j < 1, gridQuad 2 ([0, 0, 4, 6] : List ℝ) [0, 4, 0, 6] i j = zquad zGeneral := by
  intro i hi j hj
  have : i = 0 := by omega
  have : j = 0 := by omega
  subst i j
  funext c
  fin_cases c <;> simp [gridQuad, nodePlace, cellNode, zquad, zGeneral]

theorem general_met (p q : Fin 3) (h : p ≠ q) : MetSegment 2 2 ([0, 0, 4, 6] : List ℝ) [0, 4, 0, 6]
    ((p.val + 1 : ℝ), (p.val + 1 : ℝ)) ((q.val + 1 : ℝ), (q.val + 1 : ℝ)) := by
  have hin : ∀ t : Fin 3, ((t.val + 1 : ℝ), (t.val + 1 : ℝ)) ∈ quadRegion (zquad zGeneral) := by
    intro t
    have ht : (t.val : ℝ) ≤ 2 := by exact_mod_cast (by omega : t.val ≤ 2)
    have h0 : (0 : ℝ) ≤ t.val := by positivity
    refine (convex_convexHull ℝ _).segment_subset (subset_convexHull ℝ _ (Set.mem_range_self (0 : Fin 4))) (subset_convexHull ℝ _ (Set.mem_range_self (2 : Fin 4))) ?_
    refine mem_segment_iff.mpr ⟨(t.val + 1) / 6, by positivity, by linarith, ?_⟩
    refine Prod.ext ?_ ?_ <;> (simp [zquad, zGeneral]; try ring)
  constructor
  · refine ⟨0, by norm_num, 0, by norm_num, 0, ⟨le_rfl, zero_le_one, ?_⟩, 1, ⟨zero_le_one, le_rfl, ?_⟩, zero_ne_one⟩
    · rw [general_cell 0 (by norm_num) 0 (by norm_num), zero_smul, add_zero]; exact hin p
    · rw [general_cell 0 (by norm_num) 0 (by norm_num), one_smul, add_sub_cancel]; exact hin q
  · intro i hi j hj
    rw [general_cell i hi j hj]
    have := clearLine_int (z := zGeneral) (by decide) (by decide) ((p.val : ℤ) + 1, (p.val : ℤ) + 1) ((q.val : ℤ) + 1, (q.val : ℤ) + 1)
      (by have := p.isLt; constructor <;> (dsimp only; omega)) (by have := q.isLt; constructor <;> (dsimp only; omega)) (Or.inl (by decide))
    simpa using this

theorem general_convex : ∀ i < 2 - 1, ∀ j < 2 - 1, ConvexQuad (gridQuad 2 ([0, 0, 4, 6] : List ℝ) [0, 4, 0, 6] i j) := by
  intro i hi j hj
  rw [general_cell i hi j hj]
  exact zquad_convex (by decide)

/-- A segment of the diagonal and the same the other way. -/
example (g : Gels ℝ) (hg : GelsContract g) (srt : List ℝ → List ℝ) (hsrt : ∀ l, SortsTo l (srt l)) (x y : List ℝ)
    (hxl : 2 ≤ x.length) (hyl : 2 ≤ y.length) :
    ∃ d' e', flowWith noPert g srt [] 2 2 [0, 0, 4, 6] [0, 4, 0, 6] 2 [1, 3] [1, 3] 1 x y [7] = .ok d' ∧
      flowWith noPert g srt [] 2 2 [0, 0, 4, 6] [0, 4, 0, 6] 2 [3, 1] [3, 1] 1 x y [7] = .ok e' ∧
      ∃ v : ℝ, d'[0]? = some v ∧ e'[0]? = some (-v) := by
  obtain ⟨d', e', h1, h2, h⟩ := C91_reverse_convex_partial noPert noPert g hg srt hsrt 2 2 (by norm_num) (by norm_num) (by norm_num) _ _ (by simp)
    (by simp) general_convex 2 (by norm_num) [1, 3] [1, 3] [3, 1] [3, 1] (by simp) (by simp) (by simp)
    (by simp) (by intro k hk; interval_cases k <;> simp [movedNode, noPert]) x y hxl hyl [7] [7] (by simp) (by simp)
  refine ⟨d', e', h1, h2, h 0 (by norm_num) (1, 1) (3, 3) (by simp [movedNode, noPert]) (by simp [movedNode, noPert]) ?_ ?_⟩
  · have := general_met 0 2 (by decide)
    norm_num at this; exact this
  · have := general_met 2 0 (by decide)
    norm_num at this; exact this

/-- The segment split at its middle. -/
example (g : Gels ℝ) (hg : GelsContract g) (srt : List ℝ → List ℝ) (hsrt : ∀ l, SortsTo l (srt l)) :
    ∃ d' e', flowWith noPert g srt [] 2 2 [0, 0, 4, 6] [0, 4, 0, 6] 2 [1, 3] [1, 3] 1 [1, 3] [2, 4] [7] = .ok d' ∧
      flowWith noPert g srt [] 2 2 [0, 0, 4, 6] [0, 4, 0, 6] 3 [1, 2, 3] [1, 2, 3] 1 [1, 3] [2, 4] [7, 7] = .ok e' ∧
      ∃ v w : ℝ, e'[0]? = some v ∧ e'[1]? = some w ∧ d'[0]? = some (v + w) := by
  have k02 := general_met 0 2 (by decide)
  have k01 := general_met 0 1 (by decide)
  have k12 := general_met 1 2 (by decide)
  norm_num at k02 k01 k12
  obtain ⟨d', e', h1, h2, h, -⟩ := C91_split_convex_partial noPert noPert g hg srt hsrt 2 2 (by norm_num) (by norm_num) (by norm_num) _ _
    (by simp) (by simp) general_convex 2 [1, 3] [1, 3] [1, 2, 3] [1, 2, 3] (by simp) (by simp) (by simp)
    (by simp) 0 (by norm_num) (1 / 2) (by norm_num) (by norm_num) (by intro k hk; interval_cases k; simp [movedNode, noPert])
    (by simp [movedNode, noPert]; norm_num) (by intro k hk hk'; interval_cases k; simp [movedNode, noPert])
    (fun i j => if i = 0 then (if j = 0 then 0 else 2) else (if j = 0 then 1 else 5)) [1, 3] [2, 4]
    ⟨by simp, by simp, by intro i j hi hj; interval_cases i; interval_cases j <;> norm_num [xEdge], by
      intro i j hi hj; interval_cases j; interval_cases i <;> norm_num [yEdge]⟩ [7] [7, 7] (by simp) (by simp)
    (by
      intro k hk
      interval_cases k
      simpa [movedNode, noPert] using k02)
    (by
      intro k hk
      interval_cases k
      · simpa [movedNode, noPert] using k01
      · simpa [movedNode, noPert] using k12)
  exact ⟨d', e', h1, h2, h⟩

end Sg.Props
