import Verif.Props.Octree
import Mathlib.Tactic.Ring
import Mathlib.Tactic.FieldSimp
import Mathlib.Tactic.Linarith
/-
Property C150: origin and units of the coordinates do not matter to the tree of points.  `K` is an ordered field with a floor; `big` is the largest number, `DBL_MAX`.
-/
namespace Sg.Props
open Sg Sg.Octree

set_option linter.unusedSectionVars false
variable {K : Type} [Field K] [LinearOrder K] [IsStrictOrderedRing K]

/-- New coordinates: axis `j` in units of `1 / s j`, the origin at `-v`. -/
def newUnits {n : Nat} (s v p : Fin n → K) : Fin n → K := fun j => s j * p j + v j

section aux
variable {n : Nat}

/-- The running minimum and maximum from a first point. -/
def octCorners (lohi : (Fin n → K) × (Fin n → K)) (points : List (Fin n → K)) : (Fin n → K) × (Fin n → K) :=
  points.foldl (fun lohi p => (fun j => if p j < lohi.1 j then p j else lohi.1 j, fun j => if lohi.2 j < p j then p j else lohi.2 j)) lohi

theorem bounds_cons (big : K) (p : Fin n → K) (ps : List (Fin n → K)) (h : ∀ j, -big ≤ p j ∧ p j ≤ big) : bounds big (p :: ps) = octCorners (p, p) ps := by
  unfold bounds octCorners
  rw [List.foldl_cons]
  congr 1
  refine Prod.ext (funext fun j => ?_) (funext fun j => ?_)
  · dsimp only
    split_ifs with h1
    · rfl
    · exact le_antisymm (not_lt.1 h1) (h j).2
  · dsimp only
    split_ifs with h1
    · rfl
    · exact le_antisymm (h j).1 (not_lt.1 h1)

theorem octCorners_units (s v : Fin n → K) (hs : ∀ j, 0 < s j) : ∀ (ps : List (Fin n → K)) (lo hi : Fin n → K),
    octCorners (newUnits s v lo, newUnits s v hi) (ps.map (newUnits s v)) = (newUnits s v (octCorners (lo, hi) ps).1, newUnits s v (octCorners (lo, hi) ps).2)
  | [], _, _ => rfl
  | p :: ps, lo, hi => by
    have hlt : ∀ (a b : Fin n → K) (j : Fin n), newUnits s v a j < newUnits s v b j ↔ a j < b j := fun a b j => by
      unfold newUnits
      rw [add_lt_add_iff_right, mul_lt_mul_iff_right₀ (hs j)]
    have := octCorners_units s v hs ps (fun j => if p j < lo j then p j else lo j) (fun j => if hi j < p j then p j else hi j)
    unfold octCorners at this ⊢
    rw [List.map_cons, List.foldl_cons, List.foldl_cons, ← this]
    congr 1
    refine Prod.ext (funext fun j => ?_) (funext fun j => ?_)
    · show (if newUnits s v p j < newUnits s v lo j then newUnits s v p j else newUnits s v lo j) = s j * (if p j < lo j then p j else lo j) + v j
      by_cases h : p j < lo j
      · rw [if_pos h, if_pos ((hlt p lo j).2 h)]; rfl
      · rw [if_neg h, if_neg (mt (hlt p lo j).1 h)]; rfl
    · show (if newUnits s v hi j < newUnits s v p j then newUnits s v p j else newUnits s v hi j) = s j * (if hi j < p j then p j else hi j) + v j
      by_cases h : hi j < p j
      · rw [if_pos h, if_pos ((hlt hi p j).2 h)]; rfl
      · rw [if_neg h, if_neg (mt (hlt hi p j).1 h)]; rfl

theorem normalise_units (s v : Fin n → K) (hs : ∀ j, 0 < s j) (lo hi p : Fin n → K) :
    normalise (newUnits s v lo) (newUnits s v hi) (newUnits s v p) = normalise lo hi p := by
  funext j
  unfold normalise newUnits
  dsimp only
  rw [show s j * hi j + v j - (s j * lo j + v j) = s j * (hi j - lo j) by ring, show s j * p j + v j - (s j * lo j + v j) = s j * (p j - lo j) by ring,
    mul_div_mul_left _ _ (hs j).ne']

theorem loHi_units (s v lo hi : Fin n → K) (key : List Nat) :
    computeLoHi (newUnits s v lo) (newUnits s v hi) key = (newUnits s v (computeLoHi lo hi key).1, newUnits s v (computeLoHi lo hi key).2) := by
  unfold computeLoHi newUnits
  refine Prod.ext (funext fun j => ?_) (funext fun j => ?_)
  · dsimp only; ring
  · dsimp only; ring

theorem find_units (s v lo hi : Fin n → K) (nlevs : Nat) (key : List Nat) :
    (build (newUnits s v lo) (newUnits s v hi) nlevs).find key = ((build lo hi nlevs).find key).map fun b => (newUnits s v b.1, newUnits s v b.2) := by
  unfold Tree.find build
  dsimp only
  induction refineKeys (2 ^ n) nlevs [] with
  | nil => rfl
  | cons k ks ih =>
    rw [List.map_cons, List.map_cons, List.find?_cons, List.find?_cons]
    dsimp only
    by_cases h : k = key
    · simp only [h, decide_true, Option.map_some, loHi_units]
    · simp only [h, decide_false]
      exact ih
end aux

/-- **C150** Any points in any number of dimensions, on no axis all with the same coordinate: with all points given in other units (each axis its own) and from another
origin, every point, of the set or not, has the same key at every level, and the box of every key is the same box in the new coordinates. -/
theorem C150_units [FloorRing K] [HasFloor K] {n : Nat} (big : K) (nlevs : Nat) (points : List (Fin n → K)) (hne : points ≠ [])
    (s v : Fin n → K) (hs : ∀ j, 0 < s j) (_hsep : ∀ j, ∃ p ∈ points, ∃ q ∈ points, p j ≠ q j)
    (h1 : ∀ p ∈ points, ∀ j, -big ≤ p j ∧ p j ≤ big) (h2 : ∀ p ∈ points, ∀ j, -big ≤ newUnits s v p j ∧ newUnits s v p j ≤ big)
    (t : Tree K n) (hnew : new big nlevs points = .ok t) :
    ∃ t', new big nlevs (points.map (newUnits s v)) = .ok t' ∧
      (∀ p lev, getKey t'.xmins t'.xmaxs (newUnits s v p) lev = getKey t.xmins t.xmaxs p lev) ∧
      ∀ key, t'.getLo key = newUnits s v (t.getLo key) ∧ t'.getHi key = newUnits s v (t.getHi key) := by
  obtain ⟨p, ps, rfl⟩ : ∃ p ps, points = p :: ps := List.exists_cons_of_ne_nil hne
  have hb := bounds_cons big p ps (h1 p List.mem_cons_self)
  have hb' := bounds_cons big (newUnits s v p) (ps.map (newUnits s v)) (h2 p List.mem_cons_self)
  rw [octCorners_units s v hs ps p p, ← hb] at hb'
  unfold new at hnew ⊢
  by_cases hn : n = 0
  · rw [if_pos hn] at hnew
    cases hnew
  · rw [if_neg hn, Except.ok.injEq] at hnew
    subst hnew
    rw [if_neg hn, List.map_cons, hb']
    refine ⟨_, rfl, fun q lev => ?_, fun key => ⟨?_, ?_⟩⟩
    · unfold getKey build
      dsimp only
      rw [normalise_units s v hs]
    · unfold Tree.getLo
      rw [find_units]
      cases (build (bounds big (p :: ps)).1 (bounds big (p :: ps)).2 nlevs).find key <;> rfl
    · unfold Tree.getHi
      rw [find_units]
      cases (build (bounds big (p :: ps)).1 (bounds big (p :: ps)).2 nlevs).find key <;> rfl

/-- Three points in the plane; the first axis in thousandths and from another origin. -/
example : exPts ≠ [] ∧ (∀ j, ∃ p ∈ exPts, ∃ q ∈ exPts, p j ≠ q j) ∧ (∀ p ∈ exPts, ∀ j, -(10000 : ℚ) ≤ p j ∧ p j ≤ 10000) ∧
    ∀ p ∈ exPts, ∀ j, -(10000 : ℚ) ≤ newUnits ![1000, 1] ![-40, 7] p j ∧ newUnits ![1000, 1] ![-40, 7] p j ≤ 10000 := by
  decide +kernel

example : (do
    let t ← new (10000 : ℚ) 3 exPts
    let t' ← new (10000 : ℚ) 3 (exPts.map (newUnits ![1000, 1] ![-40, 7]))
    return (t.node2Key ![3 / 4, 1], t'.node2Key ![710, 8], t.getLo [3, 2] 0, t'.getLo [3, 2] 0)) = .ok ([3, 2, 0], [3, 2, 0], 3 / 4, 710) := by decide +kernel

end Sg.Props
