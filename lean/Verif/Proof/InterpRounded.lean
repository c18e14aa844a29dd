import Verif.Proof.Rounded
import Verif.Props.Interp
/-
The interpolation in rounded arithmetic: the cell and the nodes are those of exact arithmetic, and the weights are near.
-/
namespace Sg.FindPoint
open Sg.Spec Sg.Props

variable {rnd : ℝ → ℝ} {n : Nat}

theorem _root_.Sg.Spec.KeepsInts.zero {N : Nat} (h : KeepsInts rnd N) : rnd 0 = 0 := by simpa using h.int 0 (Nat.zero_le _)
theorem _root_.Sg.Spec.KeepsInts.nonneg {N : Nat} (h : KeepsInts rnd N) {x : ℝ} (hx : 0 ≤ x) : 0 ≤ rnd x := by
  rw [← h.zero]; exact h.mono hx
theorem _root_.Sg.Spec.KeepsInts.le {N : Nat} (h : KeepsInts rnd N) {x : ℝ} {k : Nat} (hk : k ≤ N) (hx : x ≤ k) : rnd x ≤ k := by
  rw [← h.int k hk]; exact h.mono hx

theorem floorI_fl (dims : Fin n → Nat) (hd : GoodDims dims) (d : Fin n → Fl rnd) (h : InGrid dims (vals d)) (i : Fin n) :
    FOps.floorI (d i) = some ⌊vals d i⌋ := by
  obtain ⟨h0, h1⟩ := h i
  obtain ⟨_, h2⟩ := hd i
  have hf : 0 ≤ ⌊vals d i⌋ := Int.floor_nonneg.2 h0
  have h4 : ⌊vals d i⌋ ≤ (dims i : Int) - 1 := by
    have h3 : ((⌊vals d i⌋ : Int) : ℝ) ≤ (((dims i : Int) - 1 : Int) : ℝ) := by
      push_cast; exact (Int.floor_le _).trans h1
    exact_mod_cast h3
  show (if inI32 ⌊vals d i⌋ then some ⌊vals d i⌋ else none) = some ⌊vals d i⌋
  rw [if_pos (by constructor <;> omega)]

theorem loCorners_fl (dims : Fin n → Nat) (hd : GoodDims dims) (d : Fin n → Fl rnd) (h : InGrid dims (vals d)) :
    loCorners dims d = .ok fun i => (cellLo dims (vals d) i : Int) := by
  have hs : ∀ i, (FOps.floorI (d i)).isSome := fun i => by rw [floorI_fl dims hd d h i]; rfl
  unfold loCorners
  rw [dif_pos hs]
  congr 1
  funext i
  have : (FOps.floorI (d i)).get (hs i) = ⌊vals d i⌋ := by
    rw [Option.get_of_eq_some _ (floorI_fl dims hd d h i)]
  rw [this]
  have hf : 0 ≤ ⌊vals d i⌋ := Int.floor_nonneg.2 (h i).1
  have h2 := (hd i).1
  unfold loCorner cellLo
  dsimp only
  rw [if_pos hf]
  split <;> omega

/-- The computed weight of a side. -/
noncomputable def sideFl (dims : Fin n → Nat) (d : Fin n → Fl rnd) (i : Fin n) (b : Nat) : Fl rnd :=
  axisWeight (d i) ((cellLo dims (vals d) i : Int) + (b : Int))

/-- The computed weight of a corner. -/
noncomputable def weightFl (dims : Fin n → Nat) (d : Fin n → Fl rnd) (j : Nat) : Fl rnd :=
  (List.finRange n).foldl (fun w i => w * sideFl dims d i (bit n j i)) 1

theorem getSrc_fl (dims : Fin n → Nat) (hd : GoodDims dims) (d : Fin n → Fl rnd) (h : InGrid dims (vals d)) :
    getSrcIndicesAndWeights dims d = .ok ((List.range (2 ^ n)).map fun j =>
      ((rowMajor dims (cornerNode dims (vals d) j) : Int), weightFl dims d j)) := by
  unfold getSrcIndicesAndWeights
  rw [loCorners_fl dims hd d h]
  simp only [bind, Except.bind, pure, Except.pure]
  congr 1
  refine List.map_congr_left fun j _ => ?_
  have hb : ∀ i : Fin n, j / nodeProdDims n i % 2 = bit n j i := by
    intro i; rw [nodeProdDims_eq n i i.2]; rfl
  unfold cornerIndexWeight
  dsimp only
  congr 1
  · unfold rowMajor cornerNode
    rw [Nat.cast_sum]
    refine Finset.sum_congr rfl fun i _ => ?_
    rw [hb, prodDims_eq]
    push_cast
    ring
  · unfold weightFl sideFl
    congr 1
    funext w i
    rw [hb]

/-- Errors of the two weights of an axis. -/
theorem side_error {u : ℝ} (hr : Rounds rnd u 0) {N : Nat} (hN : KeepsInts rnd N) (dims : Fin n → Nat) (hd : GoodDims dims)
    (d : Fin n → Fl rnd) (h : InGrid dims (vals d)) (i : Fin n) (hi : dims i ≤ N) :
    |(sideFl dims d i 0).val - sideWeight dims (vals d) i 0| + |(sideFl dims d i 1).val - sideWeight dims (vals d) i 1| ≤ (1 + u) ^ 2 - 1 := by
  obtain ⟨h0, h1, h2⟩ := cellLo_bounds dims hd (vals d) h i
  have hu := hr.rel
  set k := cellLo dims (vals d) i with hk
  have hdv : (d i).val = vals d i := rfl
  generalize vals d i = x at *
  have ek : rnd (k : ℝ) = k := hN.int k (by omega)
  have ek1 : rnd ((k : ℝ) + 1) = (k : ℝ) + 1 := by exact_mod_cast hN.int (k + 1) (by omega)
  have ek2 : rnd ((k : ℝ) + 1 + 1) = (k : ℝ) + 1 + 1 := by exact_mod_cast hN.int (k + 2) (by omega)
  have low : |(sideFl dims d i 0).val - ((k : ℝ) + 1 - x)| ≤ u * ((k : ℝ) + 1 - x) := by
    have e : (sideFl dims d i 0).val = rnd ((k : ℝ) + 1 - x) := by
      unfold sideFl axisWeight
      dsimp only
      rw [← hk]
      have hc : (((k : Int) + ((0 : Nat) : Int) : Int) : Fl rnd).val = k := by
        rw [Fl.intCast_val]; push_cast; rw [add_zero]; exact ek
      have hle : (((k : Int) + ((0 : Nat) : Int) : Int) : Fl rnd) ≤ d i := by
        show (((k : Int) + ((0 : Nat) : Int) : Int) : Fl rnd).val ≤ (d i).val
        rw [hc, hdv]; exact h0
      rw [if_pos hle, Fl.sub_val, Fl.add_val, hc, hdv]
      show rnd (rnd ((k : ℝ) + 1) - x) = _
      rw [ek1]
    rw [e]
    have := hr.err ((k : ℝ) + 1 - x)
    rwa [add_zero, abs_of_nonneg (show 0 ≤ (k : ℝ) + 1 - x by linarith)] at this
  have high : |(sideFl dims d i 1).val - (x - k)| ≤ u + u ^ 2 * ((k : ℝ) + 1 - x) := by
    have hc : (((k : Int) + ((1 : Nat) : Int) : Int) : Fl rnd).val = (k : ℝ) + 1 := by
      rw [Fl.intCast_val]; push_cast; exact ek1
    by_cases hle : (k : ℝ) + 1 ≤ x
    · have hx : x = (k : ℝ) + 1 := le_antisymm h1 hle
      have e : (sideFl dims d i 1).val = rnd 1 := by
        unfold sideFl axisWeight
        dsimp only
        rw [← hk]
        have hle' : (((k : Int) + ((1 : Nat) : Int) : Int) : Fl rnd) ≤ d i := by
          show (((k : Int) + ((1 : Nat) : Int) : Int) : Fl rnd).val ≤ (d i).val
          rw [hc, hdv]; exact hle
        rw [if_pos hle', Fl.sub_val, Fl.add_val, hc, hdv]
        show rnd (rnd ((k : ℝ) + 1 + 1) - x) = _
        rw [ek2, hx]
        congr 1
        ring
      rw [e]
      have := hr.err 1
      rw [add_zero, abs_one, mul_one] at this
      rw [hx, show (k : ℝ) + 1 - k = 1 by ring, show (k : ℝ) + 1 - (k + 1) = 0 by ring, mul_zero, add_zero]
      exact this
    · have e : (sideFl dims d i 1).val = rnd (rnd (x - ((k : ℝ) + 1)) + 1) := by
        unfold sideFl axisWeight
        dsimp only
        rw [← hk]
        have hle' : ¬ (((k : Int) + ((1 : Nat) : Int) : Int) : Fl rnd) ≤ d i := by
          show ¬ (((k : Int) + ((1 : Nat) : Int) : Int) : Fl rnd).val ≤ (d i).val
          rw [hc, hdv]; exact hle
        rw [if_neg hle', Fl.add_val, Fl.sub_val, hc, hdv]
        rfl
      rw [e]
      have a1 := hr.err (x - ((k : ℝ) + 1))
      have a2 := hr.err (rnd (x - ((k : ℝ) + 1)) + 1)
      rw [add_zero] at a1 a2
      rw [abs_of_nonpos (show x - ((k : ℝ) + 1) ≤ 0 by linarith)] at a1
      generalize rnd (x - ((k : ℝ) + 1)) = r at *
      have a3 : |r + 1| ≤ (x - k) + u * ((k : ℝ) + 1 - x) := by
        have e2 : r + 1 = (r - (x - ((k : ℝ) + 1))) + (x - k) := by ring
        rw [e2]
        refine (abs_add_le _ _).trans ?_
        rw [abs_of_nonneg (show 0 ≤ x - (k : ℝ) by linarith)]
        nlinarith
      have a4 := mul_le_mul_of_nonneg_left a3 hu
      have e3 : rnd (r + 1) - (x - k) = (rnd (r + 1) - (r + 1)) + (r - (x - ((k : ℝ) + 1))) := by ring
      rw [e3]
      refine (abs_add_le _ _).trans ?_
      nlinarith
  have es0 : sideWeight dims (vals d) i 0 = (k : ℝ) + 1 - x := by
    unfold sideWeight; rw [if_pos rfl, ← hk, ← hdv]; rfl
  have es1 : sideWeight dims (vals d) i 1 = x - k := by
    unfold sideWeight; rw [if_neg one_ne_zero, ← hk, ← hdv]; rfl
  rw [es0, es1]
  have hs : (k : ℝ) + 1 - x ≤ 1 := by linarith
  nlinarith [low, high, mul_nonneg hu hu, mul_le_mul_of_nonneg_left hs hu, mul_le_mul_of_nonneg_left hs (mul_nonneg hu hu)]

/-- Error of a product computed from factors with errors. -/
theorem fold_error {u : ℝ} (hr : Rounds rnd u 0) {ι : Type} (f : ι → Fl rnd) (y e : ι → ℝ) (hy : ∀ i, 0 ≤ y i) (he : ∀ i, |(f i).val - y i| ≤ e i) :
    ∀ (l : List ι) (w : Fl rnd) (P Q : ℝ), 0 ≤ Q → |w.val - Q| ≤ P - Q →
      |(l.foldl (fun w i => w * f i) w).val - Q * (l.map y).prod| ≤ P * (l.map fun i => (y i + e i) * (1 + u)).prod - Q * (l.map y).prod
  | [], w, P, Q, _, hw => by simpa using hw
  | i :: l, w, P, Q, hQ, hw => by
    have hu := hr.rel
    have hei : 0 ≤ e i := (abs_nonneg _).trans (he i)
    have hyi := hy i
    have hP : Q ≤ P := by have := abs_nonneg (w.val - Q); linarith
    have h1 : |w.val| ≤ P := by
      have := abs_add_le (w.val - Q) Q
      rw [sub_add_cancel, abs_of_nonneg hQ] at this
      linarith
    have h2 : |(f i).val| ≤ y i + e i := by
      have := abs_add_le ((f i).val - y i) (y i)
      rw [sub_add_cancel, abs_of_nonneg hyi] at this
      linarith [he i]
    have h3 : |w.val * (f i).val| ≤ P * (y i + e i) := by
      rw [abs_mul]; exact mul_le_mul h1 h2 (abs_nonneg _) (hQ.trans hP)
    have h4 : |w.val * (f i).val - Q * y i| ≤ P * (y i + e i) - Q * y i := by
      have e1 : w.val * (f i).val - Q * y i = w.val * ((f i).val - y i) + (w.val - Q) * y i := by ring
      rw [e1]
      refine (abs_add_le _ _).trans ?_
      rw [abs_mul, abs_mul, abs_of_nonneg hyi]
      have := mul_le_mul h1 (he i) (abs_nonneg _) (hQ.trans hP)
      have := mul_le_mul_of_nonneg_right hw hyi
      nlinarith
    have h5 : |(w * f i).val - Q * y i| ≤ P * ((y i + e i) * (1 + u)) - Q * y i := by
      rw [Fl.mul_val]
      have a := hr.err (w.val * (f i).val)
      rw [add_zero] at a
      have e1 : rnd (w.val * (f i).val) - Q * y i = (rnd (w.val * (f i).val) - w.val * (f i).val) + (w.val * (f i).val - Q * y i) := by ring
      rw [e1]
      refine (abs_add_le _ _).trans ?_
      have := mul_le_mul_of_nonneg_left h3 hu
      nlinarith
    have := fold_error hr f y e hy he l (w * f i) (P * ((y i + e i) * (1 + u))) (Q * y i) (mul_nonneg hQ hyi) h5
    simp only [List.foldl_cons, List.map_cons, List.prod_cons]
    rw [← mul_assoc Q, ← mul_assoc P]
    exact this

theorem finRange_prod (f : Fin n → ℝ) : ((List.finRange n).map f).prod = ∏ i, f i := by
  rw [← List.ofFn_eq_map, List.prod_ofFn]

/-- The errors of all weights together. -/
theorem weights_error {u : ℝ} (hr : Rounds rnd u 0) {N : Nat} (hN : KeepsInts rnd N) (dims : Fin n → Nat) (hd : GoodDims dims)
    (d : Fin n → Fl rnd) (h : InGrid dims (vals d)) (hi : ∀ i, dims i ≤ N) :
    ∑ j ∈ Finset.range (2 ^ n), |(weightFl dims d j).val - ∏ i, sideWeight dims (vals d) i (bit n j i)| ≤ (1 + u) ^ (3 * n) - 1 := by
  have hu := hr.rel
  set e : Fin n → Nat → ℝ := fun i b => |(sideFl dims d i b).val - sideWeight dims (vals d) i b| with he
  have hj : ∀ j, |(weightFl dims d j).val - ∏ i, sideWeight dims (vals d) i (bit n j i)| ≤
      ∏ i, ((sideWeight dims (vals d) i (bit n j i) + e i (bit n j i)) * (1 + u)) - ∏ i, sideWeight dims (vals d) i (bit n j i) := by
    intro j
    have := fold_error hr (fun i => sideFl dims d i (bit n j i)) (fun i => sideWeight dims (vals d) i (bit n j i)) (fun i => e i (bit n j i))
      (fun i => sideWeight_nonneg dims hd (vals d) h i _) (fun i => le_rfl) (List.finRange n) 1 1 1 zero_le_one
      (by show |(1 : ℝ) - 1| ≤ 1 - 1; simp)
    rwa [one_mul, one_mul, finRange_prod, finRange_prod] at this
  refine (Finset.sum_le_sum fun j _ => hj j).trans ?_
  rw [Finset.sum_sub_distrib, weights_sum, sum_corners n (fun i b => (sideWeight dims (vals d) i b + e i b) * (1 + u))]
  refine sub_le_sub_right ?_ 1
  have hb : ∀ i : Fin n, (sideWeight dims (vals d) i 0 + e i 0) * (1 + u) + (sideWeight dims (vals d) i 1 + e i 1) * (1 + u) ≤ (1 + u) ^ 3 := by
    intro i
    have h1 := sideWeight_add dims (vals d) i
    have h2 := side_error hr hN dims hd d h i (hi i)
    have h3 : e i 0 + e i 1 ≤ (1 + u) ^ 2 - 1 := h2
    nlinarith [mul_le_mul_of_nonneg_right h3 (show 0 ≤ 1 + u by linarith)]
  calc ∏ i, ((sideWeight dims (vals d) i 0 + e i 0) * (1 + u) + (sideWeight dims (vals d) i 1 + e i 1) * (1 + u))
      ≤ ∏ _i : Fin n, (1 + u) ^ 3 := Finset.prod_le_prod (fun i _ => by
        have h0 := sideWeight_nonneg dims hd (vals d) h i 0
        have h1 := sideWeight_nonneg dims hd (vals d) h i 1
        have e0 : 0 ≤ e i 0 := abs_nonneg _
        have e1 : 0 ≤ e i 1 := abs_nonneg _
        positivity) (fun i _ => hb i)
    _ = (1 + u) ^ (3 * n) := by rw [Finset.prod_const, Finset.card_univ, Fintype.card_fin, ← pow_mul]

end Sg.FindPoint
