import Verif.Proof.GridsRaw
import Verif.Spec.Ieee
/-
Property C122: the grid generators of the utilities with any `int` counts and any arrays.
-/
namespace Sg.Props
open Sg Sg.Grids Sg.FindPoint Trig

variable {F : Type} [Add F] [Sub F] [Mul F] [Div F] [Neg F] [NatCast F] [IntCast F]

/-- A generator called for `n0` times `n1` nodes and two arrays: a count that is zero writes nothing; positive counts write node
`(i, j)` at `i n1 + j` and nothing else, provided the arrays hold all nodes; everything else is undefined. -/
structure Generates (n0 n1 : Int) (node : Nat → Nat → F × F) (a b : List F) (r : Cxx (List (List F))) : Prop where
  empty : n0 = 0 ∨ n1 = 0 → r = .ok [a, b]
  full : 0 < n0 → 0 < n1 → n0 * n1 ≤ a.length → n0 * n1 ≤ b.length →
    ∃ a' b', r = .ok [a', b'] ∧ a'.length = a.length ∧ b'.length = b.length ∧
      (∀ i j k : Nat, i < n0 → j < n1 → (k : Int) = i * n1 + j → a'[k]? = some (node i j).1 ∧ b'[k]? = some (node i j).2) ∧
      ∀ k : Nat, n0 * n1 ≤ k → a'[k]? = a[k]? ∧ b'[k]? = b[k]?
  short : 0 < n0 → 0 < n1 → (a.length < n0 * n1 ∨ b.length < n0 * n1) → r = .error .outOfBounds
  negative : (n0 < 0 ∧ n1 ≠ 0) ∨ (n1 < 0 ∧ n0 ≠ 0) → r = .error .outOfBounds

theorem toSize_of_nonneg {n : Int} (h0 : 0 ≤ n) (h : inI32 n) : (toSize n : Int) = n := by
  unfold inI32 at h; unfold toSize; omega

theorem toSize_pos {n : Int} (h0 : n ≠ 0) (h : inI32 n) : 1 ≤ toSize n := by
  unfold inI32 at h; unfold toSize; omega

theorem generates (n0 n1 : Int) (h0 : inI32 n0) (h1 : inI32 n1) (node : Nat → Nat → F × F) (a b : List F)
    (ha : a.length ≤ 1152921504606846975) (hb : b.length ≤ 1152921504606846975) (r : Cxx (List (List F)))
    (hr : r = (fillNodes (toSize n0) (toSize n1) node (a, b)).map fun r => [r.1, r.2]) :
    Generates n0 n1 node a b r := by
  subst hr
  have hshort : a.length < toSize n0 * toSize n1 ∨ b.length < toSize n0 * toSize n1 →
      (fillNodes (toSize n0) (toSize n1) node (a, b)).map (fun r => [r.1, r.2]) = .error .outOfBounds := by
    intro h; rw [fillNodes_short _ _ _ _ _ h]; rfl
  refine ⟨?_, ?_, ?_, ?_⟩
  · intro h
    have hz : toSize n0 = 0 ∨ toSize n1 = 0 := h.imp (fun h => by rw [h]; rfl) (fun h => by rw [h]; rfl)
    have : toSize n0 * toSize n1 = 0 := by rcases hz with h | h <;> simp [h]
    obtain ⟨s, hs, e1, e2, -, e4⟩ := fillNodes_spec (toSize n0) (toSize n1) node (a, b) (by omega) (by omega)
    have u : s.1 = a := List.ext_getElem? fun k => (e4 k (by omega)).1
    have v : s.2 = b := List.ext_getElem? fun k => (e4 k (by omega)).2
    rw [hs, Except.map, u, v]
  · intro p0 p1 la lb
    have t0 := toSize_of_nonneg p0.le h0
    have t1 := toSize_of_nonneg p1.le h1
    have hm : ((toSize n0 * toSize n1 : Nat) : Int) = n0 * n1 := by rw [Int.natCast_mul, t0, t1]
    obtain ⟨s, hs, e1, e2, e3, e4⟩ := fillNodes_spec (toSize n0) (toSize n1) node (a, b) (by simp only; omega) (by simp only; omega)
    refine ⟨s.1, s.2, by rw [hs]; rfl, e1, e2, ?_, fun k hk => e4 k (by omega)⟩
    intro i j k hi hj hk
    have : k = i * toSize n1 + j := by
      have : (k : Int) = ((i * toSize n1 + j : Nat) : Int) := by rw [hk, Int.natCast_add, Int.natCast_mul, t1]
      exact_mod_cast this
    rw [this]
    exact e3 i j (by omega) (by omega)
  · intro p0 p1 hl
    have t0 := toSize_of_nonneg p0.le h0
    have t1 := toSize_of_nonneg p1.le h1
    have hm : ((toSize n0 * toSize n1 : Nat) : Int) = n0 * n1 := by rw [Int.natCast_mul, t0, t1]
    exact hshort (hl.imp (fun h => by omega) fun h => by omega)
  · intro h
    refine hshort (.inl ?_)
    rcases h with ⟨n, z⟩ | ⟨n, z⟩
    · have := toSize_neg h0.1 n
      have p := toSize_pos z h1
      calc a.length < toSize n0 * 1 := by omega
        _ ≤ toSize n0 * toSize n1 := Nat.mul_le_mul_left _ p
    · have := toSize_neg h1.1 n
      have p := toSize_pos z h0
      calc a.length < 1 * toSize n1 := by omega
        _ ≤ toSize n0 * toSize n1 := Nat.mul_le_mul_right _ p

theorem isub_one {n : Int} (h : inI32 n) (h' : n ≠ -2147483648) : isub n 1 = .ok (n - 1) := by
  unfold isub chk; rw [if_pos]; unfold inI32 at *; omega

theorem isub_min : isub (-2147483648) 1 = .error .signedOverflow := by decide

/-- C122: `createRectangularGrid`. -/
theorem C122_rectangular (n0 n1 : Int) (h0 : inI32 n0) (h1 : inI32 n1) (x0 x1 X0 X1 : F) (a b : List F)
    (ha : a.length ≤ 1152921504606846975) (hb : b.length ≤ 1152921504606846975) :
    (n0 ≠ -2147483648 → n1 ≠ -2147483648 →
      Generates n0 n1 (fun i j => (x0 + (X0 - x0) / ((n0 - 1 : Int) : F) * (i : F), x1 + (X1 - x1) / ((n1 - 1 : Int) : F) * (j : F)))
        a b (createRectangularGridR [n0, n1] [x0, x1] [X0, X1] [a, b])) ∧
    (n0 = -2147483648 ∨ n1 = -2147483648 →
      createRectangularGridR [n0, n1] [x0, x1] [X0, X1] [a, b] = .error .signedOverflow) := by
  constructor
  · intro m0 m1
    refine generates n0 n1 h0 h1 _ a b ha hb _ ?_
    rw [← fillRaw_eq _ _ (fun i => .ok i) (fun i j => .ok _) _ (fun i => ⟨i, rfl, fun j => rfl⟩)]
    simp only [createRectangularGridR, vget, List.getElem?_cons_zero, List.getElem?_cons_succ, bind, Except.bind,
      isub_one h0 m0, isub_one h1 m1]
  · intro h
    rcases h with rfl | rfl
    · simp only [createRectangularGridR, vget, List.getElem?_cons_zero, List.getElem?_cons_succ, bind, Except.bind, isub_min]
    · simp only [createRectangularGridR, vget, List.getElem?_cons_zero, List.getElem?_cons_succ, bind, Except.bind, isub_min]
      by_cases m : n0 = -2147483648
      · rw [m, isub_min]
      · rw [isub_one h0 m]

/-- C122: `createPolarGrid`. -/
theorem C122_polar [Trig F] (n0 n1 : Int) (h0 : inI32 n0) (h1 : inI32 n1) (c0 c1 radius : F) (a b : List F)
    (ha : a.length ≤ 1152921504606846975) (hb : b.length ≤ 1152921504606846975) :
    (n0 ≠ -2147483648 → n1 ≠ -2147483648 →
      Generates n0 n1 (fun i j =>
          ((c0 + radius / ((n0 - 1 : Int) : F) * (i : F)) * cos (c1 + ((2 : Nat) : F) * pi / ((n1 - 1 : Int) : F) * (j : F)),
           (c0 + radius / ((n0 - 1 : Int) : F) * (i : F)) * sin (c1 + ((2 : Nat) : F) * pi / ((n1 - 1 : Int) : F) * (j : F))))
        a b (createPolarGridR [n0, n1] [c0, c1] radius [a, b])) ∧
    (n0 = -2147483648 ∨ n1 = -2147483648 →
      createPolarGridR [n0, n1] [c0, c1] radius [a, b] = .error .signedOverflow) := by
  constructor
  · intro m0 m1
    refine generates n0 n1 h0 h1 _ a b ha hb _ ?_
    rw [← fillRaw_eq _ _ (fun i => .ok i) (fun i j => .ok _) _ (fun i => ⟨i, rfl, fun j => rfl⟩)]
    simp only [createPolarGridR, vget, List.getElem?_cons_zero, List.getElem?_cons_succ, bind, Except.bind,
      isub_one h0 m0, isub_one h1 m1]
  · intro h
    rcases h with rfl | rfl
    · simp only [createPolarGridR, vget, List.getElem?_cons_zero, List.getElem?_cons_succ, bind, Except.bind, isub_min]
    · simp only [createPolarGridR, vget, List.getElem?_cons_zero, List.getElem?_cons_succ, bind, Except.bind, isub_min]
      by_cases m : n0 = -2147483648
      · rw [m, isub_min]
      · rw [isub_one h0 m]

theorem Generates.congr {n0 n1 : Int} {node node' : Nat → Nat → F × F} {a b : List F} {r : Cxx (List (List F))}
    (h : Generates n0 n1 node a b r) (e : 0 < n0 → 0 < n1 → ∀ i j, node i j = node' i j) : Generates n0 n1 node' a b r := by
  refine ⟨h.empty, fun p0 p1 la lb => ?_, h.short, h.negative⟩
  have : node = node' := by funext i j; exact e p0 p1 i j
  exact this ▸ h.full p0 p1 la lb

theorem forN_first {σ : Type} {n : Nat} (hn : 1 ≤ n) (s : σ) (f : Nat → σ → Cxx σ) (e : UB) (h : f 0 s = .error e) :
    forN n s f = .error e := by
  obtain ⟨m, rfl⟩ : ∃ m, n = m + 1 := ⟨n - 1, by omega⟩
  simp only [forN, forFrom, h]

/-- C122: `createRotatedPoleGrid`.  The nodes are those of `Model/Grids`, of which C26 says what they are. -/
theorem C122_rotated [Trig F] (nj ni : Int) (h0 : inI32 nj) (h1 : inI32 ni) (delta_lat delta_lon : F) (a b : List F)
    (ha : a.length ≤ 1152921504606846975) (hb : b.length ≤ 1152921504606846975) :
    (nj ≠ -2147483648 → ni ≠ -2147483648 →
      Generates nj ni (fun j i =>
          (((180 : Nat) : F) * asin (rotatedPoint nj.toNat ni.toNat delta_lat delta_lon j i 2) / pi,
           ((180 : Nat) : F) * atan2 (rotatedPoint nj.toNat ni.toNat delta_lat delta_lon j i 1)
             (rotatedPoint nj.toNat ni.toNat delta_lat delta_lon j i 0) / pi))
        a b (createRotatedPoleGridR [nj, ni] delta_lat delta_lon [a, b])) ∧
    (nj = -2147483648 → createRotatedPoleGridR [nj, ni] delta_lat delta_lon [a, b] = .error .signedOverflow) ∧
    (nj ≠ -2147483648 → ni = -2147483648 → createRotatedPoleGridR [nj, ni] delta_lat delta_lon [a, b] =
      if nj = 0 then .ok [a, b] else .error .signedOverflow) := by
  refine ⟨?_, ?_, ?_⟩
  · intro m0 m1
    refine Generates.congr (node := fun j i =>
      let the := pi * (-((90 : Nat) : F) + ((180 : Nat) : F) * (j : F) / ((nj - 1 : Int) : F)) / ((180 : Nat) : F)
      let lam := pi * (-((180 : Nat) : F) + ((360 : Nat) : F) * (i : F) / ((ni - 1 : Int) : F)) / ((180 : Nat) : F)
      let xyz := matrixDotVector (rotMatrix delta_lat delta_lon) (arr [cos the * cos lam, cos the * sin lam, sin the])
      (((180 : Nat) : F) * asin (xyz 2) / pi, ((180 : Nat) : F) * atan2 (xyz 1) (xyz 0) / pi)) ?_ ?_
    · refine generates nj ni h0 h1 _ a b ha hb _ ?_
      rw [← fillRaw_eq _ _ (fun j => .ok (pi * (-((90 : Nat) : F) + ((180 : Nat) : F) * (j : F) / ((nj - 1 : Int) : F)) / ((180 : Nat) : F)))
        (fun the i =>
          let lam := pi * (-((180 : Nat) : F) + ((360 : Nat) : F) * (i : F) / ((ni - 1 : Int) : F)) / ((180 : Nat) : F)
          let xyz := matrixDotVector (rotMatrix delta_lat delta_lon) (arr [cos the * cos lam, cos the * sin lam, sin the])
          .ok (((180 : Nat) : F) * asin (xyz 2) / pi, ((180 : Nat) : F) * atan2 (xyz 1) (xyz 0) / pi)) _
        (fun i => ⟨_, rfl, fun j => rfl⟩)]
      simp only [createRotatedPoleGridR, vget, List.getElem?_cons_zero, List.getElem?_cons_succ, bind, Except.bind,
        isub_one h0 m0, isub_one h1 m1]
    · intro p0 p1 j i
      have e0 : ((nj.toNat : Nat) : Int) = nj := by omega
      have e1 : ((ni.toNat : Nat) : Int) = ni := by omega
      simp only [rotatedPoint, rowLat, colLon, e0, e1]
  · rintro rfl
    simp only [createRotatedPoleGridR, vget, List.getElem?_cons_zero, List.getElem?_cons_succ, bind, Except.bind, isub_min, fillRaw]
    rw [forN_first (toSize_pos (by decide) h0) _ _ .signedOverflow rfl]
  · rintro m rfl
    by_cases z : nj = 0
    · subst z
      simp only [createRotatedPoleGridR, vget, List.getElem?_cons_zero, List.getElem?_cons_succ, bind, Except.bind, fillRaw]
      rfl
    · rw [if_neg z]
      simp only [createRotatedPoleGridR, vget, List.getElem?_cons_zero, List.getElem?_cons_succ, bind, Except.bind, isub_min, fillRaw,
        isub_one h0 m]
      rw [forN_first (toSize_pos z h0) _ _ .signedOverflow (forN_first (toSize_pos (by decide) h1) _ _ .signedOverflow rfl)]

/-- One row short: the write past the array is found. -/
example : createRectangularGridR [2, 2] [(0 : Ieee ℚ), .fin 0] [.fin 1, .fin 1] [[.nan, .nan, .nan, .nan], [.nan, .nan, .nan]] =
    .error .outOfBounds := by decide +kernel
example : createRectangularGridR [2, 2] [(0 : Ieee ℚ), .fin 0] [.fin 1, .fin 2]
    [[.nan, .nan, .nan, .nan, .nan], [.nan, .nan, .nan, .nan]] =
    .ok [[.fin 0, .fin 0, .fin 1, .fin 1, .nan], [.fin 0, .fin 2, .fin 0, .fin 2]] := by decide +kernel
example : createRectangularGridR [0, -5] [(0 : Ieee ℚ), .fin 0] [.fin 1, .fin 2] [[], []] = .ok [[], []] := by decide +kernel

end Sg.Props
