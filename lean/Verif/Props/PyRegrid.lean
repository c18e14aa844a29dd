import Verif.Props.PyArrays
import Verif.Props.ConserveExamples
/-
Properties C94, C95 (where they fail) and C96: regridding in Python from the arrays to the result.
-/
namespace Sg.Props
open Sg.LinearSolve Sg.Triangulate Sg.QuadIntersect Sg.Conserve Sg.Spec Sg.Plane Sg.PyNp Sg.Witness MeasureTheory
open Sg.FindPoint (bind_ok_inv)

/-- The program: set both grids, compute the weights, then anything that sets no grid and computes no weights. -/
def regrid (per : Nat × Nat) (dx dy sx sy : Arr) (rest : List (Stmt ℝ)) : List (Stmt ℝ) :=
  [.setDstGrid dx dy, .setSrcGrid per sx sy, .computeWeights] ++ rest

/-- What is assumed of the arrays: contiguous, the two arrays of a grid of the same shape, at least one source cell, all
cells convex and no decision closer than the tolerance. -/
structure CleanArrays (mem : Buffers ℝ) (dx dy sx sy : Arr) : Prop where
  fits : dx.Fits mem ∧ dy.Fits mem ∧ sx.Fits mem ∧ sy.Fits mem
  contiguous : dx.Contiguous ∧ dy.Contiguous ∧ sx.Contiguous ∧ sy.Contiguous
  dstShape : dy.n0 = dx.n0 ∧ dy.n1 = dx.n1
  srcShape : sy.n0 = sx.n0 ∧ sy.n1 = sx.n1
  some : 1 < sx.n0 ∧ 1 < sx.n1
  cells : ∀ i j a b, i + 1 < dx.n0 → j + 1 < dx.n1 → a + 1 < sx.n0 → b + 1 < sx.n1 →
    CleanCells (cellOf mem dx dy i j) (cellOf mem sx sy a b)

theorem fits_append {m : Buffers ℝ} {a : Arr} (l : List ℝ) (h : a.Fits m) : a.Fits (m ++ [l]) := by
  obtain ⟨h0, h1, h⟩ := h
  refine ⟨h0, h1, fun i hi j hj => ?_⟩
  have := h i hi j hj
  have hlt : a.buf < m.length := by
    by_contra hc
    unfold Arr.at at this
    rw [List.getElem?_eq_none (by omega)] at this
    simp at this
  rw [at_append _ _ _ hlt]
  exact this

theorem fits_lt {m : Buffers ℝ} {a : Arr} (h : a.Fits m) : a.buf < m.length := by
  by_contra hc
  have := h.2.2 0 h.1 0 h.2.1
  unfold Arr.at at this
  rw [List.getElem?_eq_none (by omega)] at this
  simp at this

/-- A cell number gives the place of the cell. -/
theorem place {n0 n1 k : Nat} (h : k < (n0 - 1) * (n1 - 1)) : k / (n1 - 1) + 1 < n0 ∧ k % (n1 - 1) + 1 < n1 := by
  have hp : 0 < n1 - 1 := by
    rcases Nat.eq_zero_or_pos (n1 - 1) with h' | h'
    · rw [h', Nat.mul_zero] at h; omega
    · exact h'
  have h1 : k / (n1 - 1) < n0 - 1 := Nat.div_lt_of_lt_mul (by rw [Nat.mul_comm]; exact h)
  have h2 := Nat.mod_lt k hp
  generalize k / (n1 - 1) = q at *
  generalize k % (n1 - 1) = r at *
  omega

/-- A sum over cell numbers is a sum over rows and columns. -/
theorem sum_rows_columns (n0 n1 : Nat) (f : Nat → ℝ) :
    ∑ k ∈ Finset.range (n0 * n1), f k = ∑ a ∈ Finset.range n0, ∑ b ∈ Finset.range n1, f (a * n1 + b) := by
  induction n0 with
  | zero => simp
  | succ n ih => rw [Nat.succ_mul, Finset.sum_range_add, ih, Finset.sum_range_succ]

theorem sum_swap (I J A B : Finset Nat) (f : Nat → Nat → Nat → Nat → ℝ) :
    ∑ i ∈ I, ∑ j ∈ J, ∑ a ∈ A, ∑ b ∈ B, f i j a b = ∑ a ∈ A, ∑ b ∈ B, ∑ i ∈ I, ∑ j ∈ J, f i j a b := by
  have h1 : ∀ i ∈ I, ∑ j ∈ J, ∑ a ∈ A, ∑ b ∈ B, f i j a b = ∑ a ∈ A, ∑ b ∈ B, ∑ j ∈ J, f i j a b := fun i _ => by
    rw [Finset.sum_comm]
    exact Finset.sum_congr rfl fun a _ => Finset.sum_comm
  rw [Finset.sum_congr rfl h1, Finset.sum_comm]
  exact Finset.sum_congr rfl fun a _ => Finset.sum_comm

/-- The region covered by the cells of a grid given by two arrays. -/
def arraysRegion (mem : Buffers ℝ) (x y : Arr) : Set (ℝ × ℝ) :=
  {p | ∃ i j, i + 1 < x.n0 ∧ j + 1 < x.n1 ∧ p ∈ quadRegion (cellOf mem x y i j)}

/-- Different cells of the grid have no area in common. -/
def CellsApart (mem : Buffers ℝ) (x y : Arr) : Prop :=
  ∀ i j k l, i + 1 < x.n0 → j + 1 < x.n1 → k + 1 < x.n0 → l + 1 < x.n1 → (i, j) ≠ (k, l) →
    area (quadRegion (cellOf mem x y i j) ∩ quadRegion (cellOf mem x y k l)) = 0

/-- The number of a cell gives back its place. -/
theorem place_back {n a b : Nat} (hb : b < n) : (a * n + b) / n = a ∧ (a * n + b) % n = b := by
  constructor
  · rw [Nat.add_comm, Nat.add_mul_div_right _ _ (by omega), Nat.div_eq_of_lt hb, Nat.zero_add]
  · rw [Nat.add_comm, Nat.add_mul_mod_self_right, Nat.mod_eq_of_lt hb]

theorem number_lt {n0 n1 a b : Nat} (ha : a < n0) (hb : b < n1) : a * n1 + b < n0 * n1 :=
  calc a * n1 + b < a * n1 + n1 := by omega
    _ = (a + 1) * n1 := by ring
    _ ≤ _ := Nat.mul_le_mul_right _ ha

/-- The area inside a grid is the sum of the areas inside its cells. -/
theorem area_cells {A : Set P2} (hA : IsCompact A) {mem : Buffers ℝ} {x y : Arr} (h : CellsApart mem x y) :
    area (A ∩ arraysRegion mem x y) =
      ∑ a ∈ Finset.range (x.n0 - 1), ∑ b ∈ Finset.range (x.n1 - 1), area (A ∩ quadRegion (cellOf mem x y a b)) := by
  have hreg : arraysRegion mem x y = ⋃ k ∈ Finset.range ((x.n0 - 1) * (x.n1 - 1)),
      quadRegion (cellOf mem x y (k / (x.n1 - 1)) (k % (x.n1 - 1))) := by
    ext p
    simp only [arraysRegion, Set.mem_setOf_eq, Set.mem_iUnion, Finset.mem_range, exists_prop]
    constructor
    · rintro ⟨i, j, hi, hj, hp⟩
      refine ⟨i * (x.n1 - 1) + j, number_lt (by omega) (by omega), ?_⟩
      rw [(place_back (show j < x.n1 - 1 by omega)).1, (place_back (show j < x.n1 - 1 by omega)).2]
      exact hp
    · rintro ⟨k, hk, hp⟩
      exact ⟨_, _, (place hk).1, (place hk).2, hp⟩
  rw [hreg, area_parts hA (fun k => quadRegion (cellOf mem x y (k / (x.n1 - 1)) (k % (x.n1 - 1))))
    (fun _ => isCompact_region _), sum_rows_columns]
  · refine Finset.sum_congr rfl fun a _ => Finset.sum_congr rfl fun b hb => ?_
    have hb' := Finset.mem_range.mp hb
    simp only [(place_back (a := a) hb').1, (place_back (a := a) hb').2]
  · intro k hk l hl hne
    refine h _ _ _ _ (place hk).1 (place hk).2 (place hl).1 (place hl).2 ?_
    intro he
    obtain ⟨h1, h2⟩ := Prod.mk.inj he
    apply hne
    rw [← Nat.div_add_mod k (x.n1 - 1), ← Nat.div_add_mod l (x.n1 - 1), h1, h2]

variable (g : Gels ℝ) (hg : GelsContract g) (sort : List P2 → List P2) (hsort : ∀ l, IsStdSort l (sort l)) (mode : Mode)
  (mem : Buffers ℝ) (per : Nat × Nat) (dx dy sx sy : Arr) (hA : CleanArrays mem dx dy sx sy)
  (rest : List (Stmt ℝ)) (hrest : ∀ c ∈ rest, Harmless c) (w : World ℝ)
  (h : Runs g sort mode mem (regrid per dx dy sx sy rest) w)
  (s : Arr) (hs : s.Fits w.mem) (cs : s.Contiguous) (hshape : s.n0 = sx.n0 - 1 ∧ s.n1 = sx.n1 - 1)
  (hne : ∀ d, w.dstData = some d → s.buf ≠ d.buf)
include hg hsort hA hrest h hs cs hshape hne

/-- **C96** With contiguous arrays, after setting both grids and computing the weights, and after anything else that sets no
grid (earlier interpolations, writing to arrays, the coordinates included), `apply` returns an array with an entry per
destination cell: the sum over the source cells of the fraction of the destination cell they cover times the value of the
source array. -/
theorem C96_values :
    ∃ d w', w.apply s = .ok (.array d, w') ∧ d.n0 = dx.n0 - 1 ∧ d.n1 = dx.n1 - 1 ∧
      ∀ i j, i < d.n0 → j < d.n1 → d.at w'.mem i j =
        some (∑ a ∈ Finset.range s.n0, ∑ b ∈ Finset.range s.n1,
          overlapFraction (cellOf mem dx dy i j) (cellOf mem sx sy a b) * (s.at w.mem a b).getD 0) := by
  obtain ⟨⟨fdx, fdy, fsx, fsy⟩, ⟨cdx, cdy, csx, csy⟩, dsh, ssh, hsome, hcl⟩ := hA
  obtain ⟨hown, -⟩ := runs_inv h
  -- the grids
  obtain ⟨dxb, edx, bdx, ldx, adx⟩ := behind_ok fdx cdx
  obtain ⟨dyb, edy, bdy, ldy, ady⟩ := behind_ok fdy cdy
  obtain ⟨sxb, esx, bsx, lsx, asx⟩ := behind_ok fsx csx
  obtain ⟨syb, esy, bsy, lsy, asy⟩ := behind_ok fsy csy
  have ldy' := ldy; rw [dsh.1, dsh.2] at ldy'
  have lsy' := lsy; rw [ssh.1, ssh.2] at lsy'
  -- the program
  obtain ⟨w0, e0, h1⟩ := bind_ok_inv h
  obtain ⟨o, eo, e0⟩ := bind_ok_inv e0
  cases e0
  obtain ⟨r1, e1, h1⟩ := bind_ok_inv h1
  obtain ⟨xs, ex, e1⟩ := bind_ok_inv e1
  obtain ⟨ys, ey, e1⟩ := bind_ok_inv e1
  obtain ⟨o1, eo1, e1⟩ := bind_ok_inv e1
  cases e1
  obtain ⟨r2, e2, h1⟩ := bind_ok_inv h1
  obtain ⟨xs', ex', e2⟩ := bind_ok_inv e2
  obtain ⟨ys', ey', e2⟩ := bind_ok_inv e2
  obtain ⟨o2, eo2, e2⟩ := bind_ok_inv e2
  cases e2
  obtain ⟨r3, e3, h1⟩ := bind_ok_inv h1
  have ex0 : xs = dxb.drop dx.off := by
    have : behind mem dx = .ok xs := ex
    rw [bdx] at this; cases this; rfl
  have ey0 : ys = dyb.drop dy.off := by
    have : behind mem dy = .ok ys := ey
    rw [bdy] at this; cases this; rfl
  have behind_app : ∀ (a : Arr) (l : List ℝ), a.buf < mem.length → behind (mem ++ [l]) a = behind mem a := by
    intro a l hlt
    unfold behind vget
    rw [List.getElem?_append_left hlt]
  have ex0' : xs' = sxb.drop sx.off := by
    have hq : behind (mem ++ [List.replicate ((dx.n0 - 1) * (dx.n1 - 1)) 0]) sx = .ok xs' := ex'
    rw [behind_app _ _ (fits_lt fsx), bsx] at hq; cases hq; rfl
  have ey0' : ys' = syb.drop sy.off := by
    have hq : behind (mem ++ [List.replicate ((dx.n0 - 1) * (dx.n1 - 1)) 0]) sy = .ok ys' := ey'
    rw [behind_app _ _ (fits_lt fsy), bsy] at hq; cases hq; rfl
  subst ex0; subst ey0; subst ex0'; subst ey0'
  -- the weights
  have hw3 : ∃ o3, o2.computeWeights g sort mode = .ok o3 ∧ r3.2.handle = o3 ∧ r3.2.hasInterpWeights = true ∧
      r3.2.dstData = some (zeros mem (dx.n0 - 1) (dx.n1 - 1)).2 := by
    simp only [World.step, World.computeWeights] at e3
    simp only [Bool.not_true, Bool.false_eq_true, if_false, Option.isNone_some] at e3
    obtain ⟨o3, e, e3⟩ := bind_ok_inv e3
    cases e3
    exact ⟨o3, e, rfl, rfl, rfl⟩
  obtain ⟨o3, eo3, hh, hflag, hdst⟩ := hw3
  obtain ⟨k1, k2, k3, -⟩ := C94_copies g sort mode rest hrest _ _ h1
  rw [hh] at k1; rw [hflag] at k3; rw [hdst] at k2
  have hset : setAndCompute g sort mode o (dx.n0, dx.n1) (dxb.drop dx.off) (dyb.drop dy.off) (sx.n0, sx.n1) per
      (sxb.drop sx.off) (syb.drop sy.off) = .ok o3 := by
    unfold setAndCompute
    simp only [eo1, bind, Except.bind]
    rw [show o1.setSrcGrid (sx.n0, sx.n1) per (sxb.drop sx.off) (syb.drop sy.off) = .ok o2 from eo2]
    exact eo3
  have h0 : o.weights = [] := reset_weights eo
  -- the cells
  have hdc : ∀ k < cellCount (dx.n0, dx.n1), gridCell (dx.n0, dx.n1) (dxb.drop dx.off) (dyb.drop dy.off) k =
      cellOf mem dx dy (k / (dx.n1 - 1)) (k % (dx.n1 - 1)) := by
    intro k hk
    obtain ⟨p1, p2⟩ := place hk
    exact gridCellAt_at dsh adx ady p1 p2
  have hsc : ∀ k < cellCount (sx.n0, sx.n1), gridCell (sx.n0, sx.n1) (sxb.drop sx.off) (syb.drop sy.off) k =
      cellOf mem sx sy (k / (sx.n1 - 1)) (k % (sx.n1 - 1)) := by
    intro k hk
    obtain ⟨p1, p2⟩ := place hk
    exact gridCellAt_at ssh asx asy p1 p2
  have hclean : ∀ k < cellCount (dx.n0, dx.n1), ∀ l < cellCount (sx.n0, sx.n1),
      CleanCells (gridCell (dx.n0, dx.n1) (dxb.drop dx.off) (dyb.drop dy.off) k)
        (gridCell (sx.n0, sx.n1) (sxb.drop sx.off) (syb.drop sy.off) l) := by
    intro k hk l hl
    rw [hdc k hk, hsc l hl]
    obtain ⟨p1, p2⟩ := place hk
    obtain ⟨q1, q2⟩ := place hl
    exact hcl _ _ _ _ p1 p2 q1 q2
  have hn : 0 < cellCount (sx.n0, sx.n1) := Nat.mul_pos (by simp only; omega) (by simp only; omega)
  have hT := setAndCompute_spec g hg sort hsort mode (dx.n0, dx.n1) (sx.n0, sx.n1) per _ _ _ _ ⟨fdx.1, fdx.2.1⟩
    ⟨fsx.1, fsx.2.1⟩ ldx ldy' lsx lsy' hclean hn o o3 h0 hset
  -- apply
  obtain ⟨b, sb, hbuf, hblen, hsl, hsat, happ⟩ := apply_arrays hown k3 k2 hs cs (hne _ k2)
  rw [k1] at happ
  have hcnt : s.n0 * s.n1 = cellCount (sx.n0, sx.n1) := by rw [hshape.1, hshape.2]; rfl
  obtain ⟨r, er, hrl, hrv⟩ := apply_value hT hn (fun i hi => (hclean i hi 0 hn).dst) sb (b.map (· * 0))
    (by rw [← hcnt]; exact hsl) (by rw [List.length_map, hblen]; exact Nat.le_refl _)
  refine ⟨_, _, happ r er, rfl, rfl, ?_⟩
  intro i j hi hj
  have hi' : i < dx.n0 - 1 := hi
  have hj' : j < dx.n1 - 1 := hj
  have hk : (zeros mem (dx.n0 - 1) (dx.n1 - 1)).2.buf < w.mem.length := (List.getElem?_eq_some_iff.mp hbuf).1
  rw [result_at rfl ⟨rfl, rfl⟩ hk r hi hj]
  have hlt : i * (dx.n1 - 1) + j < cellCount (dx.n0, dx.n1) :=
    calc i * (dx.n1 - 1) + j < i * (dx.n1 - 1) + (dx.n1 - 1) := by omega
      _ = (i + 1) * (dx.n1 - 1) := by ring
      _ ≤ _ := Nat.mul_le_mul_right _ hi'
  have hval := hrv _ hlt (fun _ => by
    rw [List.getD_eq_getElem?_getD, List.getElem?_map]
    cases b[i * (dx.n1 - 1) + j]? <;> simp)
  have hrlen : i * (dx.n1 - 1) + j < r.length := by
    rw [hrl, List.length_map, hblen]; exact hlt
  have ed : (i * (dx.n1 - 1) + j) / (dx.n1 - 1) = i := by
    rw [Nat.add_comm, Nat.add_mul_div_right _ _ (by omega), Nat.div_eq_of_lt hj', Nat.zero_add]
  have em : (i * (dx.n1 - 1) + j) % (dx.n1 - 1) = j := by
    rw [Nat.add_comm, Nat.add_mul_mod_self_right, Nat.mod_eq_of_lt hj']
  rw [hdc _ hlt, ed, em] at hval
  show r[i * (dx.n1 - 1) + j]? = _
  rw [getD_of_lt hrlen, hval, ← hcnt, sum_rows_columns]
  congr 1
  refine Finset.sum_congr rfl fun a ha => Finset.sum_congr rfl fun c hc' => ?_
  have ha' := Finset.mem_range.mp ha
  have hc'' := Finset.mem_range.mp hc'
  have hlt2 : a * s.n1 + c < cellCount (sx.n0, sx.n1) := by
    rw [← hcnt]
    calc a * s.n1 + c < a * s.n1 + s.n1 := by omega
      _ = (a + 1) * s.n1 := by ring
      _ ≤ _ := Nat.mul_le_mul_right _ ha'
  have ed2 : (a * s.n1 + c) / (sx.n1 - 1) = a := by
    rw [← hshape.2, Nat.add_comm, Nat.add_mul_div_right _ _ (by omega), Nat.div_eq_of_lt hc'', Nat.zero_add]
  have em2 : (a * s.n1 + c) % (sx.n1 - 1) = c := by
    rw [← hshape.2, Nat.add_comm, Nat.add_mul_mod_self_right, Nat.mod_eq_of_lt hc'']
  rw [hsc _ hlt2, ed2, em2, hsat a c ha' hc'', List.getD_eq_getElem?_getD]

/-- **C96** Where the source grid covers a destination cell and its cells do not overlap, a constant array gives the
constant. -/
theorem C96_constant (hap : CellsApart mem sx sy) (c : ℝ) (hc : ∀ a b, a < s.n0 → b < s.n1 → s.at w.mem a b = some c) :
    ∃ d w', w.apply s = .ok (.array d, w') ∧ d.n0 = dx.n0 - 1 ∧ d.n1 = dx.n1 - 1 ∧
      ∀ i j, i < d.n0 → j < d.n1 → quadRegion (cellOf mem dx dy i j) ⊆ arraysRegion mem sx sy →
        d.at w'.mem i j = some c := by
  obtain ⟨d, w', e, h0, h1, hv⟩ := C96_values g hg sort hsort mode mem per dx dy sx sy hA rest hrest w h s hs cs hshape hne
  refine ⟨d, w', e, h0, h1, fun i j hi hj hcov => ?_⟩
  rw [hv i j hi hj]
  have hcl := (hA.cells i j 0 0 (by omega) (by omega) hA.some.1 hA.some.2).dst
  have hpos := area_pos hcl
  have hsum := area_cells (isCompact_region (cellOf mem dx dy i j)) hap
  rw [Set.inter_eq_left.mpr hcov] at hsum
  congr 1
  calc _ = ∑ a ∈ Finset.range s.n0, ∑ b ∈ Finset.range s.n1,
        area (quadRegion (cellOf mem dx dy i j) ∩ quadRegion (cellOf mem sx sy a b)) * (c / area (quadRegion (cellOf mem dx dy i j))) :=
        Finset.sum_congr rfl fun a ha => Finset.sum_congr rfl fun b hb => by
          rw [hc a b (Finset.mem_range.mp ha) (Finset.mem_range.mp hb), overlapFraction, Option.getD_some]
          ring
    _ = c := by
        simp only [← Finset.sum_mul]
        rw [hshape.1, hshape.2, ← hsum, mul_div_cancel₀ _ hpos.ne']

/-- **C96** The total of area times value over the result is the total over the source array of value times the area inside
the destination grid. -/
theorem C96_total (hap : CellsApart mem dx dy) :
    ∃ d w', w.apply s = .ok (.array d, w') ∧ d.n0 = dx.n0 - 1 ∧ d.n1 = dx.n1 - 1 ∧
      ∑ i ∈ Finset.range d.n0, ∑ j ∈ Finset.range d.n1,
          area (quadRegion (cellOf mem dx dy i j)) * (d.at w'.mem i j).getD 0 =
        ∑ a ∈ Finset.range s.n0, ∑ b ∈ Finset.range s.n1,
          area (quadRegion (cellOf mem sx sy a b) ∩ arraysRegion mem dx dy) * (s.at w.mem a b).getD 0 := by
  obtain ⟨d, w', e, h0, h1, hv⟩ := C96_values g hg sort hsort mode mem per dx dy sx sy hA rest hrest w h s hs cs hshape hne
  refine ⟨d, w', e, h0, h1, ?_⟩
  have hl : ∀ i ∈ Finset.range d.n0, ∀ j ∈ Finset.range d.n1,
      area (quadRegion (cellOf mem dx dy i j)) * (d.at w'.mem i j).getD 0 =
        ∑ a ∈ Finset.range s.n0, ∑ b ∈ Finset.range s.n1,
          area (quadRegion (cellOf mem sx sy a b) ∩ quadRegion (cellOf mem dx dy i j)) * (s.at w.mem a b).getD 0 := by
    intro i hi j hj
    have hi' := Finset.mem_range.mp hi
    have hj' := Finset.mem_range.mp hj
    have hpos := area_pos (hA.cells i j 0 0 (by omega) (by omega) hA.some.1 hA.some.2).dst
    rw [hv i j hi' hj', Option.getD_some, Finset.mul_sum]
    refine Finset.sum_congr rfl fun a _ => ?_
    rw [Finset.mul_sum]
    refine Finset.sum_congr rfl fun b _ => ?_
    rw [overlapFraction, ← mul_assoc, mul_div_cancel₀ _ hpos.ne', Set.inter_comm]
  rw [Finset.sum_congr rfl fun i hi => Finset.sum_congr rfl fun j hj => hl i hi j hj]
  have hr : ∀ a ∈ Finset.range s.n0, ∀ b ∈ Finset.range s.n1,
      area (quadRegion (cellOf mem sx sy a b) ∩ arraysRegion mem dx dy) * (s.at w.mem a b).getD 0 =
        ∑ i ∈ Finset.range d.n0, ∑ j ∈ Finset.range d.n1,
          area (quadRegion (cellOf mem sx sy a b) ∩ quadRegion (cellOf mem dx dy i j)) * (s.at w.mem a b).getD 0 := by
    intro a _ b _
    rw [area_cells (isCompact_region _) hap, Finset.sum_mul, h0, h1]
    exact Finset.sum_congr rfl fun i _ => Finset.sum_mul _ _ _
  rw [Finset.sum_congr rfl fun a ha => Finset.sum_congr rfl fun b hb => hr a ha b hb]
  exact sum_swap _ _ _ _ _

/-- **C96** If both grids cover the same region the total is conserved. -/
theorem C96_conserved (hap : CellsApart mem dx dy) (hsame : arraysRegion mem dx dy = arraysRegion mem sx sy) :
    ∃ d w', w.apply s = .ok (.array d, w') ∧ d.n0 = dx.n0 - 1 ∧ d.n1 = dx.n1 - 1 ∧
      ∑ i ∈ Finset.range d.n0, ∑ j ∈ Finset.range d.n1,
          area (quadRegion (cellOf mem dx dy i j)) * (d.at w'.mem i j).getD 0 =
        ∑ a ∈ Finset.range s.n0, ∑ b ∈ Finset.range s.n1,
          area (quadRegion (cellOf mem sx sy a b)) * (s.at w.mem a b).getD 0 := by
  obtain ⟨d, w', e, h0, h1, ht⟩ :=
    C96_total g hg sort hsort mode mem per dx dy sx sy hA rest hrest w h s hs cs hshape hne hap
  refine ⟨d, w', e, h0, h1, ht.trans ?_⟩
  refine Finset.sum_congr rfl fun a ha => Finset.sum_congr rfl fun b hb => ?_
  have ha' := Finset.mem_range.mp ha
  have hb' := Finset.mem_range.mp hb
  have : quadRegion (cellOf mem sx sy a b) ⊆ arraysRegion mem dx dy := by
    rw [hsame]
    exact fun p hp => ⟨a, b, by omega, by omega, hp⟩
  rw [Set.inter_eq_left.mpr this]

omit hrest h hs cs hshape hne in
/-- **C96** If every two cells have an overlap with interior or at most one point in common (and the vector of points keeps
its buffer) the grids are set and the weights computed without undefined behaviour and exceptions. -/
theorem C96_runs
    (hover : ∀ i j a b, i + 1 < dx.n0 → j + 1 < dx.n1 → a + 1 < sx.n0 → b + 1 < sx.n1 →
      (interior (quadRegion (cellOf mem dx dy i j) ∩ quadRegion (cellOf mem sx sy a b))).Nonempty ∨
      (quadRegion (cellOf mem dx dy i j) ∩ quadRegion (cellOf mem sx sy a b)).Subsingleton) :
    ∃ w, Runs g sort .keptBuffer mem (regrid per dx dy sx sy []) w ∧ w.hasInterpWeights = true ∧
      w.mem = mem ++ [List.replicate ((dx.n0 - 1) * (dx.n1 - 1)) 0] ∧
      ∀ d, w.dstData = some d → d.buf = mem.length := by
  obtain ⟨⟨fdx, fdy, fsx, fsy⟩, ⟨cdx, cdy, csx, csy⟩, dsh, ssh, hsome, hcl⟩ := hA
  obtain ⟨dxb, edx, bdx, ldx, adx⟩ := behind_ok fdx cdx
  obtain ⟨dyb, edy, bdy, ldy, ady⟩ := behind_ok fdy cdy
  obtain ⟨sxb, esx, bsx, lsx, asx⟩ := behind_ok fsx csx
  obtain ⟨syb, esy, bsy, lsy, asy⟩ := behind_ok fsy csy
  have ldy' := ldy; rw [dsh.1, dsh.2] at ldy'
  have lsy' := lsy; rw [ssh.1, ssh.2] at lsy'
  have hdc : ∀ k < cellCount (dx.n0, dx.n1), gridCell (dx.n0, dx.n1) (dxb.drop dx.off) (dyb.drop dy.off) k =
      cellOf mem dx dy (k / (dx.n1 - 1)) (k % (dx.n1 - 1)) := by
    intro k hk
    obtain ⟨p1, p2⟩ := place hk
    exact gridCellAt_at dsh adx ady p1 p2
  have hsc : ∀ k < cellCount (sx.n0, sx.n1), gridCell (sx.n0, sx.n1) (sxb.drop sx.off) (syb.drop sy.off) k =
      cellOf mem sx sy (k / (sx.n1 - 1)) (k % (sx.n1 - 1)) := by
    intro k hk
    obtain ⟨p1, p2⟩ := place hk
    exact gridCellAt_at ssh asx asy p1 p2
  have hclean : ∀ k < cellCount (dx.n0, dx.n1), ∀ l < cellCount (sx.n0, sx.n1),
      CleanCells (gridCell (dx.n0, dx.n1) (dxb.drop dx.off) (dyb.drop dy.off) k)
        (gridCell (sx.n0, sx.n1) (sxb.drop sx.off) (syb.drop sy.off) l) := by
    intro k hk l hl
    rw [hdc k hk, hsc l hl]
    exact hcl _ _ _ _ (place hk).1 (place hk).2 (place hl).1 (place hl).2
  have hn : 0 < cellCount (sx.n0, sx.n1) := Nat.mul_pos (by simp only; omega) (by simp only; omega)
  obtain ⟨o3, hset⟩ := C65_safe_partial g hg sort hsort (dx.n0, dx.n1) (sx.n0, sx.n1) per _ _ _ _ ⟨fdx.1, fdx.2.1⟩
    ⟨fsx.1, fsx.2.1⟩ ldx ldy' lsx lsy' hclean { src := none, dst := none, weights := [], it := none, it2 := none }
    (by
      intro k hk l hl
      rw [hdc k hk, hsc l hl]
      exact hover _ _ _ _ (place hk).1 (place hk).2 (place hl).1 (place hl).2) hn
  obtain ⟨o1, eo1, hset⟩ := bind_ok_inv hset
  obtain ⟨o2, eo2, eo3⟩ := bind_ok_inv hset
  have behind_app : ∀ (a : Arr) (l : List ℝ), a.buf < mem.length → behind (mem ++ [l]) a = behind mem a := by
    intro a l hlt
    unfold behind vget
    rw [List.getElem?_append_left hlt]
  refine ⟨{ mem := (zeros mem (dx.n0 - 1) (dx.n1 - 1)).1, handle := o3, hasSrcCoords := true, hasInterpWeights := true,
            dstData := some (zeros mem (dx.n0 - 1) (dx.n1 - 1)).2 }, ?_, rfl, rfl, ?_⟩
  · have hnew : (Conserve.new .lenient : Cxx (Interp ℝ)) =
        .ok { src := none, dst := none, weights := [], it := none, it2 := none } := rfl
    unfold Runs PyNp.init regrid
    simp only [hnew, bind, Except.bind, pure, Except.pure, List.cons_append, List.nil_append, World.run, World.step,
      World.setDstGrid, bdx, bdy, eo1, World.setSrcGrid]
    rw [show behind (zeros mem (dx.n0 - 1) (dx.n1 - 1)).1 sx = .ok _ from (behind_app _ _ (fits_lt fsx)).trans bsx,
      show behind (zeros mem (dx.n0 - 1) (dx.n1 - 1)).1 sy = .ok _ from (behind_app _ _ (fits_lt fsy)).trans bsy]
    simp only [eo2, World.computeWeights, eo3, bind, Except.bind, pure, Except.pure, Bool.not_true, Bool.false_eq_true,
      if_false, Option.isNone_some]
  · intro d hd
    cases hd
    rfl

/-! ### What fails -/

omit hg hsort hA hrest h hs cs hshape hne

/-- Two arrays of the shape (2, 3), transposed views: `x[i, j] = 10 j + i`, `y[i, j] = j - i`. -/
def tX : Arr := { buf := 0, off := 0, n0 := 2, n1 := 3, s0 := 1, s1 := 2 }
def tY : Arr := { buf := 1, off := 0, n0 := 2, n1 := 3, s0 := 1, s1 := 2 }
def tMem : Buffers ℚ := [[0, 1, 10, 11, 20, 21], [0, -1, 1, 0, 2, 1]]

/-- **C94** is false for a transposed view: `x[0, 1]` is 10, the node `(0, 1)` that the library stores has 1. -/
theorem C94_strided_refuted : ∃ (w w' : World ℚ) (gr : Grid ℚ), PyNp.init .lenient tMem = .ok w ∧
    w.setDstGrid tX tY = .ok (.returned, w') ∧ w'.handle.dst = some gr ∧
    tX.at w.mem 0 1 = some 10 ∧ tY.at w.mem 0 1 = some 1 ∧ gr.nodeCoord 1 = .ok (1, -1) :=
  ⟨{ mem := tMem, handle := { src := none, dst := none, weights := [], it := none, it2 := none }, hasSrcCoords := false,
     hasInterpWeights := false, dstData := none },
   { mem := tMem ++ [[0, 0]],
     handle := { src := none, dst := some ⟨(2, 3), [0, 0, 1, -1, 10, 1, 11, 0, 20, 2, 21, 1]⟩, weights := [], it := none,
                 it2 := none },
     hasSrcCoords := false, hasInterpWeights := false,
     dstData := some { buf := 2, off := 0, n0 := 1, n1 := 2, s0 := 2, s1 := 1 } },
   ⟨(2, 3), [0, 0, 1, -1, 10, 1, 11, 0, 20, 2, 21, 1]⟩, by decide +kernel, by decide +kernel, rfl, by decide +kernel,
   by decide +kernel, by decide +kernel⟩

/-- **C94** is false if the second array has another shape: the library reads past its end. -/
theorem C94_short_refuted : ∃ (w : World ℚ), PyNp.init .lenient ([[0, 0, 1, 1, 2, 2], [0, 1, 0, 1]] : Buffers ℚ) = .ok w ∧
    w.setDstGrid { buf := 0, off := 0, n0 := 3, n1 := 2, s0 := 2, s1 := 1 }
      { buf := 1, off := 0, n0 := 2, n1 := 2, s0 := 2, s1 := 1 } = .error .outOfBounds :=
  ⟨{ mem := [[0, 0, 1, 1, 2, 2], [0, 1, 0, 1]],
     handle := { src := none, dst := none, weights := [], it := none, it2 := none }, hasSrcCoords := false,
     hasInterpWeights := false, dstData := none }, by decide +kernel, by decide +kernel⟩

/-- The unit square as both grids, and two source arrays with one entry. -/
def uX : Arr := { buf := 0, off := 0, n0 := 2, n1 := 2, s0 := 2, s1 := 1 }
def uY : Arr := { buf := 1, off := 0, n0 := 2, n1 := 2, s0 := 2, s1 := 1 }
def uMem : Buffers ℚ := [[0, 0, 1, 1], [0, 1, 0, 1], [5], [7]]
def uProgram : List (Stmt ℚ) := [.setDstGrid uX uY, .setSrcGrid (0, 0) uX uY, .computeWeights]
def oneEntry (b : Nat) : Arr := { buf := b, off := 0, n0 := 1, n1 := 1, s0 := 1, s1 := 1 }
def uWorld (r : ℚ) : World ℚ :=
  { mem := uMem ++ [[r]],
    handle := { src := some ⟨(2, 2), [0, 0, 0, 1, 1, 0, 1, 1]⟩, dst := some ⟨(2, 2), [0, 0, 0, 1, 1, 0, 1, 1]⟩,
                weights := [(0, [(0, 1)])], it := none, it2 := none },
    hasSrcCoords := true, hasInterpWeights := true, dstData := some (oneEntry 4) }

theorem u_runs : Runs cramerGels stdSort .keptBuffer uMem uProgram (uWorld 0) := by
  unfold Runs
  decide +kernel

/-- **C95** is false for results that are kept: the array with the first result has the second one after the next call. -/
theorem C95_kept_refuted : ∃ (w w1 w2 : World ℚ) (d d' : Arr),
    Runs cramerGels stdSort .keptBuffer uMem uProgram w ∧
    w.apply (oneEntry 2) = .ok (.array d, w1) ∧ d.at w1.mem 0 0 = some 5 ∧
    w1.apply (oneEntry 3) = .ok (.array d', w2) ∧ d.at w2.mem 0 0 = some 7 :=
  ⟨uWorld 0, uWorld 5, uWorld 7, oneEntry 4, oneEntry 4, u_runs, by decide +kernel, by decide +kernel, by decide +kernel,
    by decide +kernel⟩

/-- **C95** is false if the source array is the result of an earlier call: the weight is 1 and the value 5, the result 0. -/
theorem C95_own_refuted : ∃ (w w1 w2 : World ℚ) (d d' : Arr),
    Runs cramerGels stdSort .keptBuffer uMem uProgram w ∧ weightOf w.handle.weights 0 0 = 1 ∧
    w.apply (oneEntry 2) = .ok (.array d, w1) ∧ d.at w1.mem 0 0 = some 5 ∧
    w1.apply d = .ok (.array d', w2) ∧ d'.at w2.mem 0 0 = some 0 :=
  ⟨uWorld 0, uWorld 5, uWorld 0, oneEntry 4, oneEntry 4, u_runs, by decide +kernel, by decide +kernel, by decide +kernel,
    by decide +kernel, by decide +kernel⟩

/-! ### Cases that meet the hypotheses -/

/-- C94: contiguous arrays that fit. -/
instance (m : Buffers ℚ) (a : Arr) : Decidable (a.Fits m) := by unfold Arr.Fits; infer_instance
instance (a : Arr) : Decidable a.Contiguous := by unfold Arr.Contiguous; infer_instance

example : uX.Fits uMem ∧ uY.Fits uMem ∧ uX.Contiguous ∧ uY.Contiguous ∧ uY.n0 = uX.n0 ∧ uY.n1 = uX.n1 := by decide +kernel

/-- C95: a source array that is not the result array. -/
example : Runs cramerGels stdSort .keptBuffer uMem uProgram (uWorld 0) ∧ (oneEntry 2).Fits (uWorld 0).mem ∧
    (oneEntry 2).Contiguous ∧ ∀ d, (uWorld 0).dstData = some d → (oneEntry 2).buf ≠ d.buf :=
  ⟨u_runs, by decide +kernel, by decide +kernel, by intro d hd; cases hd; decide⟩

/-- C96: the grids of `ConserveExamples` as arrays, the square [0,4] x [0,4] cut into two columns and into two rows, and a
source array. -/
def rMem : Buffers ℝ := [exDx, exDy, exSx, exSy, [10, 20]]
def rDx : Arr := { buf := 0, off := 0, n0 := 3, n1 := 2, s0 := 2, s1 := 1 }
def rDy : Arr := { buf := 1, off := 0, n0 := 3, n1 := 2, s0 := 2, s1 := 1 }
def rSx : Arr := { buf := 2, off := 0, n0 := 2, n1 := 3, s0 := 3, s1 := 1 }
def rSy : Arr := { buf := 3, off := 0, n0 := 2, n1 := 3, s0 := 3, s1 := 1 }
def rS : Arr := { buf := 4, off := 0, n0 := 1, n1 := 2, s0 := 2, s1 := 1 }

theorem r_fits (k n0 n1 : Nat) (b : List ℝ) (m : Buffers ℝ) (hb : m[k]? = some b) (hl : n0 * n1 ≤ b.length) (h0 : 0 < n0)
    (h1 : 0 < n1) : Arr.Fits m { buf := k, off := 0, n0 := n0, n1 := n1, s0 := n1, s1 := 1 } := by
  refine ⟨h0, h1, fun i hi j hj => ?_⟩
  rw [at_contiguous ⟨rfl, rfl⟩ hi hj]
  have := number_lt hi hj
  simp only [hb, Option.bind_some, Nat.zero_add]
  rw [List.getElem?_eq_getElem (lt_of_lt_of_le this hl)]
  rfl

theorem rD_cell {i j : Nat} (hi : i + 1 < 3) (hj : j + 1 < 2) :
    cellOf rMem rDx rDy i j = gridCell (3, 2) exDx exDy i := by
  rcases (show (i = 0 ∨ i = 1) ∧ j = 0 by omega) with ⟨rfl | rfl, rfl⟩ <;>
  · funext k
    fin_cases k <;> simp [cellOf, Arr.at, rDx, rDy, rMem, gridCell, gridCellAt, gridNode, exDx, exDy]

theorem rS_cell {i j : Nat} (hi : i + 1 < 2) (hj : j + 1 < 3) :
    cellOf rMem rSx rSy i j = gridCell (2, 3) exSx exSy j := by
  rcases (show i = 0 ∧ (j = 0 ∨ j = 1) by omega) with ⟨rfl, rfl | rfl⟩ <;>
  · funext k
    fin_cases k <;> simp [cellOf, Arr.at, rSx, rSy, rMem, gridCell, gridCellAt, gridNode, exSx, exSy]

theorem r_clean : CleanArrays rMem rDx rDy rSx rSy where
  fits := ⟨r_fits 0 3 2 exDx _ rfl (by decide) (by decide) (by decide), r_fits 1 3 2 exDy _ rfl (by decide) (by decide) (by decide),
    r_fits 2 2 3 exSx _ rfl (by decide) (by decide) (by decide), r_fits 3 2 3 exSy _ rfl (by decide) (by decide) (by decide)⟩
  contiguous := ⟨⟨rfl, rfl⟩, ⟨rfl, rfl⟩, ⟨rfl, rfl⟩, ⟨rfl, rfl⟩⟩
  dstShape := ⟨rfl, rfl⟩
  srcShape := ⟨rfl, rfl⟩
  some := ⟨by decide, by decide⟩
  cells := by
    intro i j a b hi hj ha hb
    rw [rD_cell hi hj, rS_cell ha hb]
    exact ex_clean i (by simp [rDx, cellCount] at *; omega) b (by simp [rSx, cellCount] at *; omega)

theorem r_apart : CellsApart rMem rDx rDy := by
  intro i j k l hi hj hk hl hne
  rw [rD_cell hi hj, rD_cell hk hl]
  refine exD_noOverlap i (by simp [rDx, cellCount] at *; omega) k (by simp [rDx, cellCount] at *; omega) ?_
  rintro rfl
  simp only [rDx] at hj hl
  exact hne (by rw [show j = l by omega])

theorem r_apart' : CellsApart rMem rSx rSy := by
  intro i j k l hi hj hk hl hne
  rw [rS_cell hi hj, rS_cell hk hl]
  refine exS_noOverlap j (by simp [rSx, cellCount] at *; omega) l (by simp [rSx, cellCount] at *; omega) ?_
  rintro rfl
  simp only [rSx] at hi hk
  exact hne (by rw [show i = k by omega])

theorem r_regions : arraysRegion rMem rDx rDy = Set.Icc (0 : ℝ) 4 ×ˢ Set.Icc (0 : ℝ) 4 ∧
    arraysRegion rMem rSx rSy = Set.Icc (0 : ℝ) 4 ×ˢ Set.Icc (0 : ℝ) 4 := by
  rw [← exD_region]
  constructor
  · ext p
    simp only [arraysRegion, gridRegion, Set.mem_setOf_eq, Set.mem_iUnion, Finset.mem_range, exists_prop]
    constructor
    · rintro ⟨i, j, hi, hj, hp⟩
      rw [rD_cell hi hj] at hp
      exact ⟨i, by simp [rDx, cellCount] at *; omega, hp⟩
    · rintro ⟨i, hi, hp⟩
      have hi' : i < 2 := hi
      refine ⟨i, 0, by simp only [rDx]; omega, by decide, ?_⟩
      rw [rD_cell (by omega) (by decide)]
      exact hp
  · rw [exD_region, ← exS_region]
    ext p
    simp only [arraysRegion, gridRegion, Set.mem_setOf_eq, Set.mem_iUnion, Finset.mem_range, exists_prop]
    constructor
    · rintro ⟨i, j, hi, hj, hp⟩
      rw [rS_cell hi hj] at hp
      exact ⟨j, by simp [rSx, cellCount] at *; omega, hp⟩
    · rintro ⟨i, hi, hp⟩
      have hi' : i < 2 := hi
      refine ⟨0, i, by decide, by simp only [rSx]; omega, ?_⟩
      rw [rS_cell (by decide) (by omega)]
      exact hp

theorem r_runs : ∃ w, Runs refGels stdSort .keptBuffer rMem (regrid (0, 0) rDx rDy rSx rSy []) w ∧ rS.Fits w.mem ∧
    rS.at w.mem 0 0 = some 10 ∧ rS.at w.mem 0 1 = some 20 ∧ ∀ d, w.dstData = some d → rS.buf ≠ d.buf := by
  obtain ⟨w, h, -, hm, hd⟩ := C96_runs refGels refGels_contract stdSort stdSort_ok rMem (0, 0) rDx rDy rSx rSy r_clean (by
    intro i j a b hi hj ha hb
    rw [rD_cell hi hj, rS_cell ha hb]
    exact ex_over i (by simp [rDx, cellCount] at *; omega) b (by simp [rSx, cellCount] at *; omega))
  refine ⟨w, h, ?_, ?_, ?_, ?_⟩
  · rw [hm]
    exact fits_append _ (r_fits 4 1 2 [10, 20] rMem rfl (by decide) (by decide) (by decide))
  · rw [hm]
    simp [Arr.at, rS, rMem]
  · rw [hm]
    simp [Arr.at, rS, rMem]
  · intro d e
    rw [hd d e]
    decide

/-- C96: the total is conserved on these grids. -/
example : ∃ w, Runs refGels stdSort .keptBuffer rMem (regrid (0, 0) rDx rDy rSx rSy []) w ∧ ∃ d w',
    w.apply rS = .ok (.array d, w') ∧ d.n0 = 2 ∧ d.n1 = 1 ∧
    ∑ i ∈ Finset.range d.n0, ∑ j ∈ Finset.range d.n1,
        area (quadRegion (cellOf rMem rDx rDy i j)) * (d.at w'.mem i j).getD 0 =
      ∑ a ∈ Finset.range rS.n0, ∑ b ∈ Finset.range rS.n1,
        area (quadRegion (cellOf rMem rSx rSy a b)) * (rS.at w.mem a b).getD 0 := by
  obtain ⟨w, h, hf, -, -, hne⟩ := r_runs
  exact ⟨w, h, C96_conserved refGels refGels_contract stdSort stdSort_ok .keptBuffer rMem (0, 0) rDx rDy rSx rSy r_clean []
    (by simp) w h rS hf ⟨rfl, rfl⟩ ⟨rfl, rfl⟩ hne r_apart (r_regions.1.trans r_regions.2.symm)⟩

end Sg.Props
