import Verif.Spec.Ieee
import Verif.Proof.Octree
/-
The tree of points in the arithmetic with infinities and NaN, for finite points.
-/
namespace Sg.Octree
open Sg.Ieee

variable {K : Type} [Field K] [LinearOrder K] [IsStrictOrderedRing K] [FloorRing K]

/-- `floor` keeps infinities and NaN. -/
instance instFloorIeee : HasFloor (Ieee K) := ⟨fun a => match a with
  | nan => nan
  | inf s => inf s
  | fin x => fin ((⌊x⌋ : ℤ) : K)⟩

/-- Finite points. -/
def finite {n : Nat} (p : Fin n → K) : Fin n → Ieee K := fun j => fin (p j)

omit [IsStrictOrderedRing K] [FloorRing K] in
theorem cmax_fin (a b : K) : cmax (fin a) (fin b) = fin (cmax a b) := by
  unfold cmax
  by_cases h : a < b
  · rw [if_pos h, if_pos ((fin_lt a b).mpr h)]
  · rw [if_neg h, if_neg (fun h' => h ((fin_lt a b).mp h'))]

omit [IsStrictOrderedRing K] [FloorRing K] in
theorem cmin_fin (a b : K) : cmin (fin a) (fin b) = fin (cmin a b) := by
  unfold cmin
  by_cases h : b < a
  · rw [if_pos h, if_pos ((fin_lt b a).mpr h)]
  · rw [if_neg h, if_neg (fun h' => h ((fin_lt b a).mp h'))]

omit [IsStrictOrderedRing K] [FloorRing K] in
theorem two_pow_fin (k : Nat) : (two_pow k : Ieee K) = fin (two_pow k) := by
  induction k with
  | zero => rfl
  | succ k ih => rw [two_pow, two_pow, ih]; rfl

theorem two_pow_ne (k : Nat) : (two_pow k : K) ≠ 0 := by
  rw [two_pow_eq]; positivity

omit [IsStrictOrderedRing K] in
theorem axisIndex_fin (f x b : K) : axisIndex (fin f) (fin x) (fin b) = axisIndex f x b := by
  unfold axisIndex
  dsimp only
  have e : HasFloor.floor ((fin x - fin b) * fin f) = (fin (HasFloor.floor ((x - b) * f)) : Ieee K) := by
    rw [fin_sub, fin_mul]; rfl
  rw [e, fin_zero, fin_one, cmax_fin, cmin_fin]
  rfl

theorem keyFrom_fin {n : Nat} (x : Fin n → K) : ∀ (m el : Nat) (b : Fin n → K),
    keyFrom (finite x) m el (finite b) = keyFrom x m el b
  | 0, _, _ => rfl
  | m + 1, el, b => by
    have h2 := two_pow_ne (K := K) (el + 1)
    have e : ∀ j, axisIndex (two_pow (el + 1)) (finite x j) (finite b j) = axisIndex (two_pow (el + 1)) (x j) (b j) := fun j => by
      rw [two_pow_fin]; exact axisIndex_fin _ _ _
    rw [keyFrom, keyFrom, ← keyFrom_fin x m (el + 1)]
    simp only [e]
    congr 2
    funext j
    show finite b j + (_ : Ieee K) / _ = fin _
    rw [two_pow_fin, fin_nat, fin_div _ _ h2]
    rfl

/-- In the domain the normalised coordinates are finite, along an axis of length zero as well. -/
theorem normalise_fin {n : Nat} (xmins xmaxs p : Fin n → K) (hp : ∀ j, xmins j ≤ p j ∧ p j ≤ xmaxs j) :
    normalise (finite xmins) (finite xmaxs) (finite p) = finite (normalise xmins xmaxs p) := by
  funext j
  unfold normalise finite
  dsimp only
  rw [fin_sub, fin_sub]
  by_cases h : xmaxs j - xmins j = 0
  · have hz : p j - xmins j = 0 := by
      have := hp j
      linarith [this.1, this.2]
    rw [h, hz, zero_div_zero, div_zero]
    have e : cmax (0 : Ieee K) nan = 0 := if_neg (not_lt_nan _)
    have e' : cmax (0 : K) 0 = 0 := if_neg (lt_irrefl _)
    rw [e, e', fin_zero, fin_one, cmin_fin]
  · rw [fin_div _ _ h, fin_zero, fin_one, cmax_fin, cmin_fin]

theorem getKey_fin {n : Nat} (xmins xmaxs p : Fin n → K) (hp : ∀ j, xmins j ≤ p j ∧ p j ≤ xmaxs j) (lev : Nat) :
    getKey (finite xmins) (finite xmaxs) (finite p) lev = getKey xmins xmaxs p lev := by
  unfold getKey
  rw [normalise_fin _ _ _ hp]
  exact keyFrom_fin _ _ _ _

omit [FloorRing K] in
theorem loHiFrom_fin {n : Nat} : ∀ (key : List Nat) (dx : K) (lo hi : Fin n → K),
    loHiFrom key (fin dx) (finite lo) (finite hi) = (finite (loHiFrom key dx lo hi).1, finite (loHiFrom key dx lo hi).2)
  | [], _, _, _ => rfl
  | q :: key, dx, lo, hi => by
    rw [loHiFrom, loHiFrom]
    have h2 : (1 + 1 : K) ≠ 0 := by norm_num
    have e : (fin dx / (1 + 1) : Ieee K) = fin (dx / (1 + 1)) := by
      rw [fin_one, fin_add, fin_div _ _ h2]
    rw [e]
    exact loHiFrom_fin key _ _ _

omit [FloorRing K] in
theorem computeLoHi_fin {n : Nat} (xmins xmaxs : Fin n → K) (key : List Nat) :
    computeLoHi (finite xmins) (finite xmaxs) key = (finite (computeLoHi xmins xmaxs key).1, finite (computeLoHi xmins xmaxs key).2) := by
  unfold computeLoHi
  have h2 : (1 + 1 : K) ≠ 0 := by norm_num
  have e : (1 / (1 + 1) : Ieee K) = fin (1 / (1 + 1)) := by
    rw [fin_one, fin_add, fin_div _ _ h2]
  have e2 : loHiFrom key (1 / (1 + 1) : Ieee K) (fun _ : Fin n => 0) (fun _ => 1) =
      (finite (loHiFrom key (1 / (1 + 1) : K) (fun _ : Fin n => 0) (fun _ => 1)).1,
        finite (loHiFrom key (1 / (1 + 1) : K) (fun _ : Fin n => 0) (fun _ => 1)).2) := by
    rw [e]; exact loHiFrom_fin key _ _ _
  rw [e2]
  dsimp only
  refine Prod.ext ?_ ?_ <;> (funext j; simp only [finite, fin_sub, fin_mul, fin_add])

omit [FloorRing K] in
theorem find_fin {n : Nat} (xmins xmaxs : Fin n → K) (nlevs : Nat) (key : List Nat) :
    (build (finite xmins) (finite xmaxs) nlevs).find key = ((build xmins xmaxs nlevs).find key).map fun b => (finite b.1, finite b.2) := by
  unfold Tree.find build
  dsimp only
  rw [List.find?_map, List.find?_map, Option.map_map, Option.map_map, Option.map_map]
  congr 1
  funext k
  exact computeLoHi_fin xmins xmaxs k

omit [FloorRing K] in
theorem getLo_fin {n : Nat} (xmins xmaxs : Fin n → K) (nlevs : Nat) (key : List Nat) :
    (build (finite xmins) (finite xmaxs) nlevs).getLo key = finite ((build xmins xmaxs nlevs).getLo key) := by
  unfold Tree.getLo
  rw [find_fin]
  cases (build xmins xmaxs nlevs).find key <;> rfl

omit [FloorRing K] in
theorem getHi_fin {n : Nat} (xmins xmaxs : Fin n → K) (nlevs : Nat) (key : List Nat) :
    (build (finite xmins) (finite xmaxs) nlevs).getHi key = finite ((build xmins xmaxs nlevs).getHi key) := by
  unfold Tree.getHi
  rw [find_fin]
  cases (build xmins xmaxs nlevs).find key <;> rfl

/-- One step of the search for the bounds. -/
def stepBounds {F : Type} [LT F] [DecidableLT F] {n : Nat} (lohi : (Fin n → F) × (Fin n → F)) (p : Fin n → F) :
    (Fin n → F) × (Fin n → F) :=
  (fun j => if p j < lohi.1 j then p j else lohi.1 j, fun j => if lohi.2 j < p j then p j else lohi.2 j)

omit [IsStrictOrderedRing K] [FloorRing K] in
theorem bounds_fin {n : Nat} (big : K) (points : List (Fin n → K)) :
    bounds (fin big) (points.map finite) = (finite (bounds big points).1, finite (bounds big points).2) := by
  have gen : ∀ (l : List (Fin n → K)) (a b : Fin n → K),
      (l.map finite).foldl stepBounds (finite a, finite b) =
      (finite (l.foldl stepBounds (a, b)).1, finite (l.foldl stepBounds (a, b)).2) := by
    intro l
    induction l with
    | nil => intro a b; rfl
    | cons p l ih =>
      intro a b
      rw [List.map_cons, List.foldl_cons, List.foldl_cons]
      refine Eq.trans ?_ (ih _ _)
      congr 1
      refine Prod.ext ?_ ?_
      · funext j
        show (if fin (p j) < fin (a j) then fin (p j) else fin (a j)) = fin (if p j < a j then p j else a j)
        by_cases h : p j < a j
        · rw [if_pos h, if_pos ((fin_lt _ _).mpr h)]
        · rw [if_neg h, if_neg (fun h' => h ((fin_lt _ _).mp h'))]
      · funext j
        show (if fin (b j) < fin (p j) then fin (p j) else fin (b j)) = fin (if b j < p j then p j else b j)
        by_cases h : b j < p j
        · rw [if_pos h, if_pos ((fin_lt _ _).mpr h)]
        · rw [if_neg h, if_neg (fun h' => h ((fin_lt _ _).mp h'))]
  exact gen points _ _

end Sg.Octree
