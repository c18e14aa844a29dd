import Verif.Proof.FindPointRaw
import Verif.Props.FindPoint
/-
Property C104: setting the grid of a cell finder through pointers, with counts of type `int`, on an object that may have had grids
of other dimensions before.
-/
namespace Sg.Props
open Sg Sg.FindPoint Sg.LinearSolve

set_option linter.unusedSectionVars false
variable {F : Type} [Zero F] [One F] [Add F] [Sub F] [Mul F] [Div F] [Neg F] [LT F] [DecidableLT F]
  [LE F] [DecidableLE F] [DecidableEq F] [NatCast F] [IntCast F] [FOps F] {n : Nat}

/-- All the vectors with one entry per axis have `m` entries. -/
structure Sized (m : Nat) (s : Raw F) : Prop where
  coords : s.coords.length = m
  xmins : s.xmins.length = m
  xmaxs : s.xmaxs.length = m
  prodDims : s.prodDims.length = m
  nodeProdDims : s.nodeProdDims.length = m
  indexPeriodicity : s.indexPeriodicity.length = m
  dims : s.dims.length = m
  targetPoint : s.targetPoint.length = m
  dIndices : s.dIndices.length = m
  jacMatrix : s.jacMatrix.length = m * m
  rhs : s.rhs.length = m

/-- The finder with vectors as a finder with `n` axes: an entry that does not exist counts as what `resize` fills in. -/
def asFinder (n : Nat) (s : Raw F) : Finder F n :=
  { slvr := s.slvr
    coords := fun i => s.coords.getD i []
    bounds := if s.xmins = [] then none else some (fun i => s.xmins.getD i FOps.big, fun i => s.xmaxs.getD i (-FOps.big))
    indexPeriodicity := fun i => s.indexPeriodicity.getD i 0
    dims := fun i => s.dims.getD i 0
    targetPoint := fun i => s.targetPoint.getD i 0
    nitermax := s.nitermax, tolpos := s.tolpos, iter := s.iter
    dIndices := fun i => s.dIndices.getD i 0
    errorHistory := s.errorHistory, oldError := s.oldError }

/-- The memory the caller passes: for each axis a count, a flag and an array with at least as many numbers as the grid has
nodes. -/
structure Passed (dims : Fin n → Nat) (per : Fin n → Int) (coords : Fin n → Nat → F) (D P : List Int) (C : List (List F)) :
    Prop where
  counts : ∀ i : Fin n, D[(i : Nat)]? = some (dims i : Int)
  flags : ∀ i : Fin n, P[(i : Nat)]? = some (per i)
  arrays : ∀ i : Fin n, ∃ a, C[(i : Nat)]? = some a ∧ ∀ j < ∏ k, dims k, a[j]? = some (coords i j)

theorem prod_ofFn (dims : Fin n → Nat) : (List.ofFn dims).prod = ∏ i, dims i := by
  rw [List.prod_ofFn]

theorem drop_prod_le {l : List Nat} (h : ∀ a ∈ l, 1 ≤ a) (k : Nat) : (l.drop k).prod ≤ l.prod := by
  conv_rhs => rw [← List.take_append_drop k l, List.prod_append]
  have : 1 ≤ (l.take k).prod := by
    apply List.one_le_prod_of_one_le
    intro a ha
    exact h a (List.mem_of_mem_take ha)
  exact Nat.le_mul_of_pos_left _ this

theorem take_prod_le {l : List Nat} (h : ∀ a ∈ l, 1 ≤ a) (k : Nat) : (l.take k).prod ≤ l.prod := by
  conv_rhs => rw [← List.take_append_drop k l, List.prod_append]
  have : 1 ≤ (l.drop k).prod := by
    apply List.one_le_prod_of_one_le
    intro a ha
    exact h a (List.mem_of_mem_drop ha)
  exact Nat.le_mul_of_pos_right _ this

/-- **C104.** A grid with up to 64 axes, at least one node along each and no more than `INT_MAX` nodes is taken over from any
arrays that are long enough, whatever grids the object had before, of whatever number of axes: the call is defined and the object is
then the one the model of the class without sizes has.  The steps in the flat arrays are products of the numbers of nodes of later
axes and powers of two. -/
theorem C104_setGrid (hcast : ∀ k : Nat, ((k : Int) : F) = (k : F)) {m : Nat} {s : Raw F} (hs : Sized m s) (hn : 0 < n)
    (hn' : n ≤ 64) {dims : Fin n → Nat} {per : Fin n → Int} {coords : Fin n → Nat → F} {D P : List Int} {C : List (List F)}
    (hp : Passed dims per coords D P C) (h1 : ∀ i, 1 ≤ dims i) (htot : ∏ i, dims i ≤ 2147483647) :
    ∃ s', s.setGrid (n : Int) D P C = .ok s' ∧ Sized n s' ∧ asFinder n s' = (asFinder n s).setGrid dims per coords ∧
      ∀ i : Fin n, s'.prodDims[(i : Nat)]? = some ((List.ofFn dims).drop (i + 1)).prod ∧
        s'.nodeProdDims[(i : Nat)]? = some (2 ^ (n - 1 - i)) := by
  have hall : ∀ a ∈ List.ofFn dims, 1 ≤ a := by
    intro a ha
    obtain ⟨i, rfl⟩ := (List.mem_ofFn' _ _).mp ha
    exact h1 i
  have hprod : (List.ofFn dims).prod = ∏ i, dims i := List.prod_ofFn
  have hle : ∀ i, dims i ≤ 2147483647 := fun i =>
    (Finset.single_le_prod' (f := dims) (fun k _ => h1 k) (Finset.mem_univ i)).trans htot
  have hpos : 0 < ∏ i, dims i := Finset.prod_pos fun i _ => h1 i
  have hpd : ∀ i < n, prodDims dims i < 18446744073709551616 := by
    intro i _
    rw [prodDims_eq_drop]
    have := drop_prod_le hall (i + 1)
    omega
  obtain ⟨w, ew, lw, hw⟩ := setPeriodicity_ok (F := F) (dims := fun i => (dims i : Int)) hp.counts hp.flags
    (rsz_length s.indexPeriodicity n 0)
  have e1 := setProducts_ok hn hn' hp.counts hpd hle (rsz_length s.prodDims n 0) (rsz_length s.nodeProdDims n 0)
  have e2 := setDims_ok hp.counts (fun k _ => (take_prod_le hall k).trans (by omega)) hle (rsz_length s.dims n 0)
  obtain ⟨cs, lo, hi, e3, lc, ll, lh, -, hc⟩ := setComponents_ok (n := n) (C := C) hpos htot
    (c := fun a j => if h : a < n then coords ⟨a, h⟩ j else 0) n 0
    { s with
      coords := rsz s.coords n [], prodDims := (List.range n).map (FindPoint.prodDims dims),
      nodeProdDims := (List.range n).map (FindPoint.nodeProdDims n), dims := List.ofFn dims,
      jacMatrix := rsz s.jacMatrix (n * n) 0, rhs := rsz s.rhs n 0, dIndices := rsz s.dIndices n 0,
      targetPoint := rsz s.targetPoint n 0, xmins := rsz s.xmins n FOps.big, xmaxs := rsz s.xmaxs n (-FOps.big),
      indexPeriodicity := w } (by omega)
    (fun a ha => by
      obtain ⟨src, h, h'⟩ := hp.arrays ⟨a, ha⟩
      exact ⟨src, h, fun j hj => by rw [h' j hj, dif_pos ha]⟩)
    (rsz_length _ _ _) (rsz_length _ _ _) (rsz_length _ _ _)
  rw [← hprod] at e3
  have getD_of : ∀ {α : Type} {l : List α} {i : Nat} {a d : α}, l[i]? = some a → l.getD i d = a := by
    intro α l i a d h
    rw [List.getD_eq_getElem?_getD, h]; rfl
  refine ⟨{ s with
      slvr := some (LinearSolve.new n n)
      coords := cs, prodDims := (List.range n).map (FindPoint.prodDims dims),
      nodeProdDims := (List.range n).map (FindPoint.nodeProdDims n), dims := List.ofFn dims,
      jacMatrix := rsz s.jacMatrix (n * n) 0, rhs := rsz s.rhs n 0, dIndices := rsz s.dIndices n 0,
      targetPoint := rsz s.targetPoint n 0, xmins := lo, xmaxs := hi, indexPeriodicity := w }, ?_, ?_, ?_, ?_⟩
  · unfold Raw.setGrid
    rw [if_neg (by omega)]
    simp only [Int.toNat_natCast, resizeAll_ok s (show n ≤ 46340 by omega), ew, e1, e2, lift', bind, Except.bind, pure,
      Except.pure]
    rw [e3]
  · exact ⟨lc, ll, lh, by simp, by simp, lw, by simp, rsz_length _ _ _, rsz_length _ _ _, rsz_length _ _ _, rsz_length _ _ _⟩
  · have hlo : lo ≠ [] := fun h => by rw [h] at ll; simp at ll; omega
    have hb : ((asFinder n s).bounds.getD (fun _ => FOps.big, fun _ => -FOps.big)) =
        (fun i : Fin n => s.xmins.getD i FOps.big, fun i : Fin n => s.xmaxs.getD i (-FOps.big)) := by
      unfold asFinder
      by_cases h : s.xmins = []
      · have : s.xmaxs = [] := by
          have h2 := hs.xmins
          rw [h] at h2
          exact List.length_eq_zero_iff.mp (hs.xmaxs.trans h2.symm)
        simp [h, this]
      · simp [h]
    have hkeep : ∀ v : List F, v.length = m → ∀ i : Fin n,
        (rsz v n 0).getD i 0 = (if (asFinder n s).bounds.isSome then (fun i : Fin n => v.getD i 0) else fun _ => 0) i := by
      intro v hv i
      rw [getD_of (rsz_get v n 0 i.2)]
      by_cases h : s.xmins = []
      · have : v = [] := by
          have h2 := hs.xmins
          rw [h] at h2
          exact List.length_eq_zero_iff.mp (hv.trans h2.symm)
        simp [this]
      · simp [asFinder, h]
    unfold Finder.setGrid
    rw [hb]
    simp only [hprod] at hc ⊢
    conv_lhs => unfold asFinder
    rw [if_neg hlo]
    simp only [Finder.mk.injEq]
    refine ⟨trivial, ?_, ?_, ?_, ?_, ?_, rfl, rfl, rfl, ?_, rfl, rfl⟩
    · funext i
      rw [getD_of (hc i (Nat.zero_le _) i.2).1]
      simp
    · simp only [Option.some.injEq, Prod.mk.injEq]
      constructor
      · funext i
        rw [getD_of ((hc i (Nat.zero_le _) i.2).2.1.trans (by rw [rsz_get _ _ _ i.2]; rfl))]
        simp
      · funext i
        rw [getD_of ((hc i (Nat.zero_le _) i.2).2.2.trans (by rw [rsz_get _ _ _ i.2]; rfl))]
        simp
    · funext i
      have := hw i
      rw [List.getD_eq_getElem?_getD, this, rsz_get _ _ _ i.2]
      split_ifs
      · exact hcast _
      · rfl
    · funext i
      rw [getD_of (a := dims i) (by simp)]
    · funext i
      exact hkeep _ hs.targetPoint i
    · funext i
      exact hkeep _ hs.dIndices i
  · intro i
    constructor
    · simp [← prodDims_eq_drop]
    · simp [← nodeProdDims_eq_pow]

/-- **C104.** With no axes the call does nothing. -/
theorem C104_no_axes (s : Raw F) {ndims : Int} (h : ndims ≤ 0) (D P : List Int) (C : List (List F)) :
    s.setGrid ndims D P C = .ok s := by
  unfold Raw.setGrid
  rw [if_pos h]
  rfl

/-- **C104.** A grid with more than `INT_MAX` nodes makes the count overflow, which is undefined behaviour. -/
theorem C104_too_many (s : Raw F) (hn : 0 < n) (hn' : n ≤ 46340) {dims : Fin n → Nat} {D P : List Int} (C : List (List F))
    (hD : ∀ i : Fin n, D[(i : Nat)]? = some (dims i : Int)) (hP : n ≤ P.length) (h1 : ∀ i, 1 ≤ dims i)
    (htot : 2147483647 < ∏ i, dims i) : s.setGrid (n : Int) D P C = .error (.undefined .signedOverflow) := by
  have hprod : (List.ofFn dims).prod = ∏ i, dims i := List.prod_ofFn
  have hDl : n ≤ D.length := by
    by_contra h
    have := hD ⟨n - 1, by omega⟩
    rw [List.getElem?_eq_none (by simp; omega)] at this
    cases this
  obtain ⟨w, ew, -⟩ := setPeriodicity_ok (F := F) (dims := fun i => (dims i : Int)) hD
    (per := fun i => P[(i : Nat)]'(by omega)) (fun i => List.getElem?_eq_getElem (by omega)) (rsz_length s.indexPeriodicity n 0)
  obtain ⟨r, e1⟩ := setProducts_defined hn hDl (rsz_length s.prodDims n 0) (rsz_length s.nodeProdDims n 0)
  have e2 := setDims_overflow hD h1 (rsz_length s.dims n 0) (by omega)
  unfold Raw.setGrid
  rw [if_neg (by omega)]
  simp only [Int.toNat_natCast, resizeAll_ok s hn', ew, e1, e2, lift', bind, Except.bind]

/-- **C104.** An array of coordinates with fewer numbers than the grid has nodes is read past its end. -/
theorem C104_short_array (s : Raw F) (hn : 0 < n) (hn' : n ≤ 64) {dims : Fin n → Nat} {D P : List Int} {C : List (List F)}
    (hD : ∀ i : Fin n, D[(i : Nat)]? = some (dims i : Int)) (hP : n ≤ P.length) (h1 : ∀ i, 1 ≤ dims i)
    (htot : ∏ i, dims i ≤ 2147483647) (hC : ∃ a < n, ∀ src, C[a]? = some src → src.length < ∏ i, dims i) :
    s.setGrid (n : Int) D P C = .error (.undefined .outOfBounds) := by
  have hprod : (List.ofFn dims).prod = ∏ i, dims i := List.prod_ofFn
  have hall : ∀ a ∈ List.ofFn dims, 1 ≤ a := by
    intro a ha
    obtain ⟨i, rfl⟩ := (List.mem_ofFn' _ _).mp ha
    exact h1 i
  have hle : ∀ i, dims i ≤ 2147483647 := fun i =>
    (Finset.single_le_prod' (f := dims) (fun k _ => h1 k) (Finset.mem_univ i)).trans htot
  have hpos : 0 < ∏ i, dims i := Finset.prod_pos fun i _ => h1 i
  have hpd : ∀ i < n, prodDims dims i < 18446744073709551616 := by
    intro i _
    rw [prodDims_eq_drop]
    have := drop_prod_le hall (i + 1)
    omega
  obtain ⟨w, ew, -⟩ := setPeriodicity_ok (F := F) (dims := fun i => (dims i : Int)) hD
    (per := fun i => P[(i : Nat)]'(by omega)) (fun i => List.getElem?_eq_getElem (by omega)) (rsz_length s.indexPeriodicity n 0)
  have e1 := setProducts_ok hn hn' hD hpd hle (rsz_length s.prodDims n 0) (rsz_length s.nodeProdDims n 0)
  have e2 := setDims_ok hD (fun k _ => (take_prod_le hall k).trans (by omega)) hle (rsz_length s.dims n 0)
  obtain ⟨a, ha, hsh⟩ := hC
  unfold Raw.setGrid
  rw [if_neg (by omega)]
  simp only [Int.toNat_natCast, resizeAll_ok s (show n ≤ 46340 by omega), ew, e1, e2, lift', bind, Except.bind]
  rw [hprod, setComponents_short (n := n) hpos htot n 0 _ (by omega) (rsz_length _ _ _) (rsz_length _ _ _) (rsz_length _ _ _)
    ⟨a, Nat.zero_le _, ha, hsh⟩]

/-- **C104.** Counts with a negative product, whose leading products fit an `int`, make the call throw. -/
theorem C104_negative (s : Raw F) (hn : 0 < n) (hn' : n ≤ 46340) {D P : List Int} (C : List (List F))
    (hD : n ≤ D.length) (hP : n ≤ P.length) (hsz : ∀ k ≤ n, inI32 (D.take k).prod) (hneg : (D.take n).prod < 0) :
    s.setGrid (n : Int) D P C = .error .lengthError := by
  obtain ⟨w, ew, -⟩ := setPeriodicity_ok (F := F) (n := n) (dims := fun i => D[(i : Nat)]'(by omega))
    (fun i => List.getElem?_eq_getElem (by omega))
    (per := fun i => P[(i : Nat)]'(by omega)) (fun i => List.getElem?_eq_getElem (by omega)) (rsz_length s.indexPeriodicity n 0)
  obtain ⟨r, e1⟩ := setProducts_defined hn hD (rsz_length s.prodDims n 0) (rsz_length s.nodeProdDims n 0)
  obtain ⟨ds, e2⟩ := setDims_int hD hsz (rsz_length s.dims n 0)
  have hbig := toSize_neg (hsz n le_rfl).1 hneg
  have hres : ∀ v : List F, resize v (toSize (D.take n).prod) 0 = .error .lengthError := fun v => by
    unfold resize; rw [if_neg (by omega)]
  unfold Raw.setGrid
  rw [if_neg (by omega)]
  simp only [Int.toNat_natCast, resizeAll_ok s hn', ew, e1, e2, lift', bind, Except.bind]
  rw [show n = (n - 1) + 1 by omega] at *
  unfold Raw.setComponents Raw.setComponent
  simp only [vget_ok (show 0 < (rsz s.coords (n - 1 + 1) ([] : List F)).length by rw [rsz_length]; omega), lift', hres, bind,
    Except.bind]

/-- **C104.** A grid without nodes is accepted without a look at the arrays: no coordinates remain, and the bounds are those of the grids
before. -/
theorem C104_empty (s : Raw F) (hn : 0 < n) (hn' : n ≤ 46340) {D P : List Int} (C : List (List F))
    (hD : n ≤ D.length) (hP : n ≤ P.length) (hsz : ∀ k ≤ n, inI32 (D.take k).prod) (hz : (D.take n).prod = 0) :
    ∃ s', s.setGrid (n : Int) D P C = .ok s' ∧ s'.coords = List.replicate n [] ∧
      (∀ i < n, s'.xmins[i]? = some (s.xmins.getD i FOps.big) ∧ s'.xmaxs[i]? = some (s.xmaxs.getD i (-FOps.big))) ∧
      s'.slvr = some (LinearSolve.new n n) := by
  obtain ⟨w, ew, -⟩ := setPeriodicity_ok (F := F) (n := n) (dims := fun i => D[(i : Nat)]'(by omega))
    (fun i => List.getElem?_eq_getElem (by omega))
    (per := fun i => P[(i : Nat)]'(by omega)) (fun i => List.getElem?_eq_getElem (by omega)) (rsz_length s.indexPeriodicity n 0)
  obtain ⟨r, e1⟩ := setProducts_defined hn hD (rsz_length s.prodDims n 0) (rsz_length s.nodeProdDims n 0)
  obtain ⟨ds, e2⟩ := setDims_int hD hsz (rsz_length s.dims n 0)
  rw [hz] at e2
  obtain ⟨cs, e3, hl, hcs⟩ := setComponents_zero (n := n) (C := C) n 0
    { s with
      coords := rsz s.coords n [], prodDims := r.1, nodeProdDims := r.2, dims := ds,
      jacMatrix := rsz s.jacMatrix (n * n) 0, rhs := rsz s.rhs n 0, dIndices := rsz s.dIndices n 0,
      targetPoint := rsz s.targetPoint n 0, xmins := rsz s.xmins n FOps.big, xmaxs := rsz s.xmaxs n (-FOps.big),
      indexPeriodicity := w } (by omega) (rsz_length _ _ _)
  unfold Raw.setGrid
  rw [if_neg (by omega)]
  simp only [Int.toNat_natCast, resizeAll_ok s hn', ew, e1, e2, lift', bind, Except.bind, pure, Except.pure]
  rw [e3]
  refine ⟨_, rfl, ?_, fun i hi => ⟨rsz_get _ _ _ hi, rsz_get _ _ _ hi⟩, rfl⟩
  apply List.ext_getElem?
  intro a
  by_cases ha : a < n
  · rw [(hcs a).2 (Nat.zero_le _) ha, List.getElem?_replicate, if_pos ha]
  · rw [List.getElem?_eq_none (by show cs.length ≤ a; omega), List.getElem?_eq_none (by simp; omega)]

/-- A new object has empty vectors. -/
theorem C104_new (nitermax : Int) (tolpos : F) : Sized 0 (Raw.new nitermax tolpos : Raw F) ∧
    asFinder n (Raw.new nitermax tolpos : Raw F) = Finder.new nitermax tolpos :=
  ⟨⟨rfl, rfl, rfl, rfl, rfl, rfl, rfl, rfl, rfl, rfl, rfl⟩, rfl⟩

/-! ### Non-vacuity -/

/-- A line of two nodes first, then a grid of 2 × 3 nodes on the same object: the hypotheses are met by the second call. -/
example : Passed (F := ℚ) ![2, 3] ![0, 1] (fun i j => if i = 0 then (j / 3 : Nat) else (j % 3 : Nat)) [2, 3] [0, 1]
    [[0, 0, 0, 1, 1, 1], [0, 1, 2, 0, 1, 2, 77]] where
  counts := by decide
  flags := by decide
  arrays := by
    intro i
    fin_cases i
    · exact ⟨_, rfl, by decide +kernel⟩
    · exact ⟨_, rfl, by decide +kernel⟩

/-- The object after both calls. -/
def ex_twice : Call' (Raw ℚ) := do
  let s ← (Raw.new 10 (1 / 100) : Raw ℚ).setGrid 1 [2] [1] [[5, -7]]
  s.setGrid 2 [2, 3] [0, 1] [[0, 0, 0, 1, 1, 1], [0, 1, 2, 0, 1, 2, 77]]

example : (ex_twice.toOption.map fun s => (s.dims, s.prodDims, s.nodeProdDims)) = some ([2, 3], [3, 1], [2, 1]) := by
  decide +kernel
example : (ex_twice.toOption.map fun s => (s.xmins, s.xmaxs, s.indexPeriodicity)) = some ([-7, 0], [5, 2], [2, 3]) := by
  decide +kernel
example : (ex_twice.toOption.map fun s => s.coords) = some [[0, 0, 0, 1, 1, 1], [0, 1, 2, 0, 1, 2]] := by
  decide +kernel

/-- 65536 × 32768 nodes are one too many. -/
example (s : Raw ℚ) (C : List (List ℚ)) :
    s.setGrid 2 [65536, 32768] [0, 0] C = .error (.undefined .signedOverflow) :=
  C104_too_many (n := 2) (dims := ![65536, 32768]) s (by decide) (by decide) C (by decide) (by decide) (by decide)
    (by decide)

/-- A grid of 3 × 0 nodes on an object that had one. -/
example : ((do
    let s ← (Raw.new 10 (1 / 100) : Raw ℚ).setGrid 1 [2] [1] [[5, -7]]
    s.setGrid 2 [3, 0] [0, 0] []).toOption.map fun s : Raw ℚ => (s.coords, s.xmins.take 1, s.xmaxs.take 1)) = some ([[], []], [-7], [5]) := by
  decide +kernel
example (s : Raw ℚ) : ∃ s', s.setGrid 2 [3, 0] [0, 0] [] = .ok s' ∧ s'.coords = [[], []] := by
  obtain ⟨s', h, h', -⟩ := C104_empty (n := 2) s (by decide) (by decide) (D := [3, 0]) (P := [0, 0]) [] (by decide) (by decide) (by decide)
    (by decide)
  exact ⟨s', h, h'⟩

/-- An array that is too short, and a negative count. -/
example (s : Raw ℚ) : s.setGrid 2 [2, 2] [0, 0] [[0, 0, 1, 1], [0, 1, 0]] = .error (.undefined .outOfBounds) :=
  C104_short_array (n := 2) (dims := ![2, 2]) s (by decide) (by decide) (by decide) (by decide) (by decide) (by decide)
    ⟨1, by decide, by intro src h; cases h; decide⟩
example (s : Raw ℚ) (C : List (List ℚ)) : s.setGrid 2 [2, -2] [0, 0] C = .error .lengthError :=
  C104_negative (n := 2) s (by decide) (by decide) C (by decide) (by decide) (by decide) (by decide)

end Sg.Props
