import Verif.Proof.Octree
import Mathlib.Data.Rat.Floor
/-
Properties C14-C18: octree over points.
-/
namespace Sg.Props
open Sg.Octree

section anyArith
variable {F : Type} [Zero F] [One F] [Add F] [Sub F] [Mul F] [Div F] [Neg F] [LT F] [DecidableLT F]
  [HasFloor F] [NatCast F]

/-- C14: whatever the arithmetic does (rounding, infinities, NaN, degenerate domains), a key of level
`lev` has `lev` digits, each the number of one of the `2^ndims` children. -/
theorem C14_key_shape {n : Nat} (xmins xmaxs p : Fin n → F) (lev : Nat) :
    (getKey xmins xmaxs p lev).length = lev ∧ ∀ q ∈ getKey xmins xmaxs p lev, q < 2 ^ n :=
  ⟨keyFrom_length _ _ _ _, keyFrom_digits _ _ _ _⟩

/-- C16: the key at a coarser level is the prefix of the key at a finer one, in any arithmetic. -/
theorem C16_key_prefix {n : Nat} (xmins xmaxs p : Fin n → F) (lev lev' : Nat) (h : lev ≤ lev') :
    (getKey xmins xmaxs p lev' ).take lev = getKey xmins xmaxs p lev :=
  keyFrom_take _ _ _ _ _ h

/-- C17: the tree stores exactly the boxes of the keys of one up to `max nlevs 1` digits, all digits
being child numbers. -/
theorem C17_stored_keys {n : Nat} (xmins xmaxs : Fin n → F) (nlevs : Nat) (key : List Nat) :
    (∃ b, (build xmins xmaxs nlevs).find key = some b) ↔
      (1 ≤ key.length ∧ key.length ≤ max nlevs 1 ∧ ∀ q ∈ key, q < 2 ^ n) := by
  have hm : (∃ b, (build xmins xmaxs nlevs).find key = some b) ↔ key ∈ refineKeys (2 ^ n) nlevs [] := by
    unfold Tree.find build
    dsimp only
    rw [← Option.isSome_iff_exists, Option.isSome_map, List.find?_isSome]
    simp
  rw [hm, mem_refineKeys]
  constructor
  · rintro ⟨t, ht, rfl, hq, hl⟩
    have := List.length_pos_of_ne_nil ht
    simp only [List.nil_append, List.length_nil] at *
    exact ⟨by omega, by omega, hq⟩
  · rintro ⟨h1, h2, hq⟩
    refine ⟨key, List.ne_nil_of_length_pos h1, by simp, hq, ?_⟩
    simp only [List.length_nil]
    omega

end anyArith

section field
variable {K : Type} [Field K] [LinearOrder K] [IsStrictOrderedRing K] [FloorRing K]

/-- C15: for every set of points the constructor succeeds with (`ndims > 0`), every point of it and every
level not deeper than the tree, the box returned for the key of the point contains the point.  `big` is
the largest number of the arithmetic. -/
theorem C15_box_contains_point {n : Nat} (big : K) (nlevs : Nat) (points : List (Fin n → K)) (t : Tree K n)
    (hnew : new big nlevs points = .ok t)
    (hbig : ∀ p ∈ points, ∀ j, -big ≤ p j ∧ p j ≤ big)
    (p : Fin n → K) (hp : p ∈ points) (lev : Nat) (hlev : lev ≤ nlevs) (j : Fin n) :
    t.getLo (getKey t.xmins t.xmaxs p lev) j ≤ p j ∧ p j ≤ t.getHi (getKey t.xmins t.xmaxs p lev) j := by
  unfold new at hnew
  split at hnew
  · cases hnew
  · cases hnew
    have hd := C14_key_shape (bounds big points).1 (bounds big points).2 p lev
    have := getLoHi_build (bounds big points).1 (bounds big points).2 nlevs
      (getKey (bounds big points).1 (bounds big points).2 p lev) (by rw [hd.1]; exact hlev) hd.2
    show (build _ _ _).getLo (getKey (bounds big points).1 (bounds big points).2 p lev) j ≤ p j ∧
      p j ≤ (build _ _ _).getHi (getKey (bounds big points).1 (bounds big points).2 p lev) j
    rw [this.1, this.2]
    exact contains_domain _ _ _ _ (bounds_spec big points hbig p hp) j

/-- C15, second form: any point of the domain, not only the given ones. -/
theorem C15_box_contains_domain_point {n : Nat} (xmins xmaxs : Fin n → K) (nlevs : Nat) (p : Fin n → K)
    (hp : ∀ j, xmins j ≤ p j ∧ p j ≤ xmaxs j) (lev : Nat) (hlev : lev ≤ nlevs) (j : Fin n) :
    (build xmins xmaxs nlevs).getLo (getKey xmins xmaxs p lev) j ≤ p j ∧
    p j ≤ (build xmins xmaxs nlevs).getHi (getKey xmins xmaxs p lev) j := by
  have hd := C14_key_shape xmins xmaxs p lev
  have := getLoHi_build xmins xmaxs nlevs (getKey xmins xmaxs p lev) (by rw [hd.1]; exact hlev) hd.2
  rw [this.1, this.2]
  exact contains_domain _ _ _ _ hp j

/-- Which half of each axis child `q` takes: the `j`-th binary digit of `q`, most significant first. -/
def childHalf (n q : Nat) (j : Fin n) : Nat := q / 2 ^ (n - 1 - (j : Nat)) % 2

/-- C17: a child's box is the half of the parent's box selected by the child's number along every axis.
The parent of the one-digit keys is the whole domain. -/
theorem C17_child_is_half {n : Nat} (xmins xmaxs : Fin n → K) (nlevs : Nat) (key : List Nat) (q : Nat)
    (hl : key.length + 1 ≤ nlevs) (hk : ∀ d ∈ key, d < 2 ^ n) (hq : q < 2 ^ n) (j : Fin n) :
    let t := build xmins xmaxs nlevs
    t.getLo (key ++ [q]) j = t.getLo key j + (childHalf n q j : K) * ((t.getHi key j - t.getLo key j) / 2) ∧
    t.getHi (key ++ [q]) j = t.getLo (key ++ [q]) j + (t.getHi key j - t.getLo key j) / 2 := by
  dsimp only
  have h1 := getLoHi_build xmins xmaxs nlevs key (by omega) hk
  have h2 := getLoHi_build xmins xmaxs nlevs (key ++ [q]) (by simpa using hl) (by
    intro d hd
    rcases List.mem_append.1 hd with h | h
    · exact hk d h
    · simp at h; subst h; exact hq)
  rw [h1.1, h1.2, h2.1, h2.2]
  unfold computeLoHi
  dsimp only
  have hw := loHiFrom_width key (1 / (1 + 1) : K) (fun _ : Fin n => (0 : K)) (fun _ => 1)
    (by intro j; norm_num) j
  have hc : getIndices n q j = childHalf n q j := by
    unfold getIndices childHalf; rw [prodDims_eq n j j.2]
  rw [loHiFrom_snoc, hw]
  dsimp only
  rw [hc]
  constructor <;> ring

/-- C17: the children cover the parent. -/
theorem C17_children_cover {n : Nat} (xmins xmaxs : Fin n → K) (nlevs : Nat) (key : List Nat)
    (hl : key.length + 1 ≤ nlevs) (hk : ∀ d ∈ key, d < 2 ^ n) (y : Fin n → K)
    (hy : ∀ j, (build xmins xmaxs nlevs).getLo key j ≤ y j ∧ y j ≤ (build xmins xmaxs nlevs).getHi key j) :
    ∃ q < 2 ^ n, ∀ j, (build xmins xmaxs nlevs).getLo (key ++ [q]) j ≤ y j ∧
      y j ≤ (build xmins xmaxs nlevs).getHi (key ++ [q]) j := by
  set t := build xmins xmaxs nlevs with ht
  let b : Fin n → Nat := fun j => if y j ≤ t.getLo key j + (t.getHi key j - t.getLo key j) / 2 then 0 else 1
  have hb : ∀ j, b j ≤ 1 := by intro j; simp only [b]; split <;> simp
  refine ⟨∑ j : Fin n, 2 ^ (n - 1 - (j : Nat)) * b j, bits_sum_lt b hb, fun j => ?_⟩
  have hh := C17_child_is_half xmins xmaxs nlevs key _ hl hk (bits_sum_lt b hb) j
  dsimp only at hh
  rw [← ht] at hh
  rw [hh.2, hh.1]
  have hc : childHalf n (∑ j : Fin n, 2 ^ (n - 1 - (j : Nat)) * b j) j = b j := bits_get b hb j
  rw [hc]
  obtain ⟨h1, h2⟩ := hy j
  by_cases h : y j ≤ t.getLo key j + (t.getHi key j - t.getLo key j) / 2
  · have : b j = 0 := if_pos h
    rw [this]; push_cast
    constructor <;> linarith
  · have : b j = 1 := if_neg h
    rw [this]; push_cast
    have := not_le.1 h
    constructor <;> linarith

/-- C17: the children meet on faces only: a point strictly inside one child is in no other. -/
theorem C17_children_disjoint {n : Nat} (xmins xmaxs : Fin n → K) (nlevs : Nat) (key : List Nat)
    (hl : key.length + 1 ≤ nlevs) (hk : ∀ d ∈ key, d < 2 ^ n) (q q' : Nat) (hq : q < 2 ^ n) (hq' : q' < 2 ^ n)
    (hne : q ≠ q') (y : Fin n → K)
    (hy : ∀ j, (build xmins xmaxs nlevs).getLo (key ++ [q]) j < y j ∧
      y j < (build xmins xmaxs nlevs).getHi (key ++ [q]) j) :
    ¬ ∀ j, (build xmins xmaxs nlevs).getLo (key ++ [q']) j ≤ y j ∧
      y j ≤ (build xmins xmaxs nlevs).getHi (key ++ [q']) j := by
  intro hy'
  apply hne
  have hbit : ∀ j : Fin n, childHalf n q j = childHalf n q' j := by
    intro j
    by_contra hc
    have h1 := C17_child_is_half xmins xmaxs nlevs key q hl hk hq j
    have h2 := C17_child_is_half xmins xmaxs nlevs key q' hl hk hq' j
    dsimp only at h1 h2
    have a := hy j
    have a' := hy' j
    rw [h1.2, h1.1] at a
    rw [h2.2, h2.1] at a'
    have b1 : childHalf n q j = 0 ∨ childHalf n q j = 1 := by unfold childHalf; omega
    have b2 : childHalf n q' j = 0 ∨ childHalf n q' j = 1 := by unfold childHalf; omega
    rcases b1 with b1 | b1 <;> rcases b2 with b2 | b2 <;> rw [b1, b2] at hc <;> rw [b1] at a <;>
      rw [b2] at a' <;> push_cast at a a'
    · exact hc rfl
    · linarith
    · linarith
    · exact hc rfl
  apply Nat.eq_of_testBit_eq
  intro i
  by_cases hi : i < n
  · have := hbit ⟨n - 1 - i, by omega⟩
    unfold childHalf at this
    have e : n - 1 - (n - 1 - i) = i := by omega
    simp only [e] at this
    rw [Nat.testBit_eq_decide_div_mod_eq, Nat.testBit_eq_decide_div_mod_eq, this]
  · have hp : 2 ^ n ≤ 2 ^ i := Nat.pow_le_pow_right (by norm_num) (by omega)
    rw [Nat.testBit_lt_two_pow (hq.trans_le hp), Nat.testBit_lt_two_pow (hq'.trans_le hp)]

/-- C18: a point outside the domain gets the key of the nearest point of the domain (every axis of the
domain having positive length). -/
theorem C18_outside_clamped {n : Nat} (xmins xmaxs p : Fin n → K) (hdom : ∀ j, xmins j < xmaxs j)
    (lev : Nat) :
    getKey xmins xmaxs p lev = getKey xmins xmaxs (fun j => max (xmins j) (min (xmaxs j) (p j))) lev := by
  have : normalise xmins xmaxs p = normalise xmins xmaxs (fun j => max (xmins j) (min (xmaxs j) (p j))) := by
    funext j
    rw [normalise_eq, normalise_eq]
    have h : 0 < xmaxs j - xmins j := by linarith [hdom j]
    rcases le_total (p j) (xmins j) with h1 | h1
    · rw [min_eq_right (h1.trans (hdom j).le), max_eq_left h1]
      have : (p j - xmins j) / (xmaxs j - xmins j) ≤ 0 := div_nonpos_of_nonpos_of_nonneg (by linarith) h.le
      rw [min_eq_right (this.trans zero_le_one), max_eq_left this]; simp
    · rcases le_total (xmaxs j) (p j) with h2 | h2
      · rw [min_eq_left h2, max_eq_right (hdom j).le, div_self h.ne']
        have : 1 ≤ (p j - xmins j) / (xmaxs j - xmins j) := by rw [le_div_iff₀ h]; linarith
        rw [min_eq_left this]; simp
      · rw [min_eq_right h2, max_eq_right h1]
  unfold getKey; rw [this]

end field

/-! Hypotheses are met: a two dimensional tree of three levels over three points. -/
section examples
def exPts : List (Fin 2 → ℚ) := [![0, 0], ![1, 2], ![3 / 4, 1]]

example : ∃ t, new (1000 : ℚ) 3 exPts = .ok t ∧ t.nlevs = 3 := ⟨_, rfl, rfl⟩

example : ∀ p ∈ exPts, ∀ j, -(1000 : ℚ) ≤ p j ∧ p j ≤ 1000 := by
  decide +kernel

example : (bounds (1000 : ℚ) exPts).1 = ![0, 0] ∧ (bounds (1000 : ℚ) exPts).2 = ![1, 2] := by
  decide +kernel

example : getKey (![0, 0] : Fin 2 → ℚ) ![1, 2] ![3 / 4, 1] 3 = [3, 2, 0] := by
  decide +kernel

example : childHalf 2 2 0 = 1 ∧ childHalf 2 2 1 = 0 := by decide

end examples

end Sg.Props
