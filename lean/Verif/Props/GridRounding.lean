import Verif.Proof.Rounded
import Verif.Proof.Grids
/-
Property C93: rectangular grids in rounded arithmetic.  The model is used at `Fl rnd`, the real numbers with every operation rounded.
-/
namespace Sg.Props
open Sg Sg.Spec Sg.Grids

variable {rnd : ℝ → ℝ}

/-- Coordinate `i` of `n` nodes from `lo` to `hi`, every operation rounded. -/
noncomputable def roundedNode (rnd : ℝ → ℝ) (lo hi : ℝ) (n i : Nat) : ℝ :=
  rnd (lo + rnd (rnd (rnd (hi - lo) / rnd (((n : Int) - 1 : Int) : ℝ)) * rnd i))

/-- What is stored. -/
theorem rounded_nodes (n0 n1 : Nat) (lo hi : Fl rnd × Fl rnd) (c : List (Fl rnd) × List (Fl rnd))
    (hc0 : n0 * n1 ≤ c.1.length) (hc1 : n0 * n1 ≤ c.2.length) :
    ∃ r, createRectangularGrid n0 n1 lo hi c = .ok r ∧ ∀ i j, i < n0 → j < n1 →
      r.1[i * n1 + j]? = some ⟨roundedNode rnd lo.1.val hi.1.val n0 i⟩ ∧
      r.2[i * n1 + j]? = some ⟨roundedNode rnd lo.2.val hi.2.val n1 j⟩ := by
  obtain ⟨r, h1, _, _, h4, _⟩ := fillNodes_spec n0 n1
    (fun i j => (lo.1 + (hi.1 - lo.1) / (((n0 : Int) - 1 : Int) : Fl rnd) * (i : Fl rnd),
      lo.2 + (hi.2 - lo.2) / (((n1 : Int) - 1 : Int) : Fl rnd) * (j : Fl rnd))) c hc0 hc1
  exact ⟨r, h1, h4⟩

/-- **C93** In an arithmetic whose rounding keeps the order and zero, the coordinates of the nodes never decrease along their axis, and
the first is the lower bound if that is a number of the arithmetic. -/
theorem C93_order (hm : Monotone rnd) (h0 : rnd 0 = 0) (n0 n1 : Nat) (hn0 : 2 ≤ n0) (hn1 : 2 ≤ n1) (lo hi : Fl rnd × Fl rnd) (hlh : lo.1.val ≤ hi.1.val ∧ lo.2.val ≤ hi.2.val)
    (c : List (Fl rnd) × List (Fl rnd)) (hc0 : n0 * n1 ≤ c.1.length) (hc1 : n0 * n1 ≤ c.2.length) :
    ∃ r, createRectangularGrid n0 n1 lo hi c = .ok r ∧
      (∀ i i' j, i ≤ i' → i' < n0 → j < n1 → ∃ a b, r.1[i * n1 + j]? = some a ∧ r.1[i' * n1 + j]? = some b ∧ a ≤ b) ∧
      (∀ i j j', j ≤ j' → j' < n1 → i < n0 → ∃ a b, r.2[i * n1 + j]? = some a ∧ r.2[i * n1 + j']? = some b ∧ a ≤ b) ∧
      (rnd lo.1.val = lo.1.val → ∀ j < n1, r.1[j]? = some lo.1) ∧
      (rnd lo.2.val = lo.2.val → ∀ i < n0, r.2[i * n1]? = some lo.2) := by
  obtain ⟨r, e, h⟩ := rounded_nodes n0 n1 lo hi c hc0 hc1
  have pos : ∀ {x}, 0 ≤ x → 0 ≤ rnd x := fun hx => by rw [← h0]; exact hm hx
  have mono : ∀ (l u : ℝ) (n i i' : Nat), 1 ≤ n → l ≤ u → i ≤ i' → roundedNode rnd l u n i ≤ roundedNode rnd l u n i' := by
    intro l u n i i' hn hlu hi
    refine hm (add_le_add_right (hm (mul_le_mul_of_nonneg_left (hm (by exact_mod_cast hi)) (pos (div_nonneg (pos (by linarith)) (pos ?_))))) _)
    have : (0 : ℤ) ≤ (n : ℤ) - 1 := by omega
    exact_mod_cast this
  have first : ∀ (l u : ℝ) (n : Nat), rnd l = l → roundedNode rnd l u n 0 = l := by
    intro l u n hl
    unfold roundedNode
    rw [Nat.cast_zero, h0, mul_zero, h0, add_zero, hl]
  refine ⟨r, e, fun i i' j hi hi' hj => ⟨_, _, (h i j (by omega) hj).1, (h i' j hi' hj).1, mono _ _ _ _ _ (by omega) hlh.1 hi⟩,
    fun i j j' hj hj' hi => ⟨_, _, (h i j hi (by omega)).2, (h i j' hi hj').2, mono _ _ _ _ _ (by omega) hlh.2 hj⟩, fun hl j hj => ?_, fun hl i hi => ?_⟩
  · have := (h 0 j (by omega) hj).1
    rw [first _ _ _ hl, Nat.zero_mul, Nat.zero_add] at this
    exact this
  · have := (h i 0 hi (by omega)).2
    rw [first _ _ _ hl, Nat.add_zero] at this
    exact this

/-- **C93** With roundings of relative error at most `u`, on numbers of nodes that are numbers of the arithmetic, each coordinate is the
exact one up to `u` times its size and `(1 + u)^4 - (1 + u)` times the length of the axis. -/
theorem C93_error {u : ℝ} (hr : Rounds rnd u 0) (n0 n1 : Nat) (hn0 : 2 ≤ n0) (hn1 : 2 ≤ n1)
    (hex : ∀ i : Nat, i < max n0 n1 → rnd i = i) (lo hi : Fl rnd × Fl rnd)
    (c : List (Fl rnd) × List (Fl rnd)) (hc0 : n0 * n1 ≤ c.1.length) (hc1 : n0 * n1 ≤ c.2.length) :
    ∃ r, createRectangularGrid n0 n1 lo hi c = .ok r ∧ ∀ i j, i < n0 → j < n1 →
      ∃ a b, r.1[i * n1 + j]? = some a ∧ r.2[i * n1 + j]? = some b ∧
        ∀ x y : ℝ, x = lo.1.val + (i : ℝ) * (hi.1.val - lo.1.val) / ((n0 : ℝ) - 1) →
          y = lo.2.val + (j : ℝ) * (hi.2.val - lo.2.val) / ((n1 : ℝ) - 1) →
          |a.val - x| ≤ u * |x| + ((1 + u) ^ 4 - (1 + u)) * |hi.1.val - lo.1.val| ∧
          |b.val - y| ≤ u * |y| + ((1 + u) ^ 4 - (1 + u)) * |hi.2.val - lo.2.val| := by
  obtain ⟨r, e, h⟩ := rounded_nodes n0 n1 lo hi c hc0 hc1
  have hu := hr.rel
  have step : ∀ {t v E : ℝ}, |t - v| ≤ E → |rnd t - v| ≤ u * |v| + (1 + u) * E := by
    intro t v E htv
    have h1 := hr.err t
    rw [add_zero] at h1
    have h2 : |t| ≤ |v| + E := by
      have := abs_add_le (t - v) v
      rw [sub_add_cancel] at this
      linarith
    have h3 := abs_add_le (rnd t - t) (t - v)
    rw [sub_add_sub_cancel] at h3
    have := mul_le_mul_of_nonneg_left h2 hu
    linarith
  have key : ∀ (l m : ℝ) (n i : Nat), 2 ≤ n → n ≤ max n0 n1 → i < n → ∀ x, x = l + (i : ℝ) * (m - l) / ((n : ℝ) - 1) →
      |roundedNode rnd l m n i - x| ≤ u * |x| + ((1 + u) ^ 4 - (1 + u)) * |m - l| := by
    intro l m n i hn hnm hi x hx
    have hn1 : (1 : ℝ) ≤ (n : ℝ) - 1 := by
      have : ((2 : ℕ) : ℝ) ≤ n := by exact_mod_cast hn
      push_cast at this; linarith
    have hi1 : (i : ℝ) ≤ (n : ℝ) - 1 := by
      have : ((i + 1 : ℕ) : ℝ) ≤ n := by exact_mod_cast hi
      push_cast at this; linarith
    have e1 : rnd (((n : Int) - 1 : Int) : ℝ) = (n : ℝ) - 1 := by
      have := hex (n - 1) (by omega)
      rw [Nat.cast_sub (by omega), Nat.cast_one] at this
      push_cast
      exact this
    have e2 : rnd (i : ℝ) = i := hex i (by omega)
    unfold roundedNode
    rw [e1, e2]
    set N := (n : ℝ) - 1
    have hN : 0 < N := by linarith
    have a1 := step (t := m - l) (v := m - l) (E := 0) (by simp)
    have a2 : |rnd (m - l) / N - (m - l) / N| ≤ u * |m - l| / N := by
      rw [← sub_div, abs_div, abs_of_pos hN]
      exact div_le_div_of_nonneg_right (by linarith) hN.le
    have a3 := step a2
    have a4 : |rnd (rnd (m - l) / N) * i - (i : ℝ) * (m - l) / N| ≤ (2 * u + u ^ 2) * |m - l| * (i / N) := by
      have : rnd (rnd (m - l) / N) * i - (i : ℝ) * (m - l) / N = (rnd (rnd (m - l) / N) - (m - l) / N) * i := by ring
      rw [this, abs_mul, Nat.abs_cast]
      refine (mul_le_mul_of_nonneg_right a3 (Nat.cast_nonneg i)).trans (le_of_eq ?_)
      rw [abs_div, abs_of_pos hN]
      ring
    have a5 := step a4
    have hiN : (i : ℝ) / N ≤ 1 := by rw [div_le_one hN]; exact hi1
    have hiN0 : 0 ≤ (i : ℝ) / N := by positivity
    have a6 : |rnd (rnd (rnd (m - l) / N) * i) - (i : ℝ) * (m - l) / N| ≤ ((1 + u) ^ 3 - 1) * |m - l| := by
      refine a5.trans ?_
      rw [abs_div, abs_mul, Nat.abs_cast, abs_of_pos hN]
      have : u * ((i : ℝ) * |m - l| / N) + (1 + u) * ((2 * u + u ^ 2) * |m - l| * (i / N)) = ((1 + u) ^ 3 - 1) * |m - l| * (i / N) := by ring
      rw [this]
      refine mul_le_of_le_one_right (mul_nonneg ?_ (abs_nonneg _)) hiN
      have : 1 ≤ (1 + u) ^ 3 := one_le_pow₀ (by linarith)
      linarith
    have a7 : |l + rnd (rnd (rnd (m - l) / N) * i) - x| ≤ ((1 + u) ^ 3 - 1) * |m - l| := by
      rw [hx, add_sub_add_left_eq_sub]; exact a6
    refine (step a7).trans (le_of_eq ?_)
    ring
  exact ⟨r, e, fun i j hi hj => ⟨_, _, (h i j hi hj).1, (h i j hi hj).2, fun x y hx hy =>
    ⟨key _ _ _ _ hn0 (le_max_left _ _) hi x hx, key _ _ _ _ hn1 (le_max_right _ _) hj y hy⟩⟩⟩

/-- The rounding of doubles meets the hypotheses, for less than `2^53` nodes per axis. -/
example : Monotone (nearest 53) ∧ nearest 53 0 = 0 ∧ Rounds (nearest 53) (2 ^ (-53 : ℤ)) 0 ∧
    (∀ n0 n1, n0 < 2 ^ 53 → n1 < 2 ^ 53 → ∀ i : Nat, i < max n0 n1 → nearest 53 i = i) := by
  refine ⟨nearest_mono (by norm_num), nearest_zero _, by simpa using nearest_rounds 53, fun n0 n1 h0 h1 i hi => ?_⟩
  have := nearest_exact (p := 53) (m := i) (k := 0) (by rw [Nat.abs_cast]; exact_mod_cast (by omega : i < 2 ^ 53))
  simpa using this

/-- **C93 is false for the last node**: with 53 binary digits and rounding to nearest, the last of 50 nodes from 0 to 1 is not 1 but
`1 - 2^-53`.  (No number is halfway between two others on the way, so the rounding of halves plays no role.) -/
theorem C93_last_refuted : ∃ r, createRectangularGrid 50 2 ((0, 0) : Fl (nearest 53) × Fl (nearest 53)) (1, 1)
    (List.replicate 100 0, List.replicate 100 0) = .ok r ∧ r.1[49 * 2]? = some ⟨1 - 2 ^ (-53 : ℤ)⟩ := by
  obtain ⟨r, e, h⟩ := rounded_nodes 50 2 ((0, 0) : Fl (nearest 53) × Fl (nearest 53)) (1, 1)
    (List.replicate 100 0, List.replicate 100 0) (by simp) (by simp)
  refine ⟨r, e, ?_⟩
  have := (h 49 0 (by norm_num) (by norm_num)).1
  rw [Nat.add_zero] at this
  rw [this]
  congr 2
  show roundedNode (nearest 53) 0 1 50 49 = 1 - 2 ^ (-53 : ℤ)
  unfold roundedNode
  have e1 : nearest 53 (1 - 0) = 1 := by
    have := nearest_exact (p := 53) (m := 1) (k := 0) (by norm_num)
    simpa using this
  have e2 : nearest 53 49 = 49 := by
    have := nearest_exact (p := 53) (m := 49) (k := 0) (by norm_num)
    simpa using this
  have e3 : nearest 53 (1 / 49) = 5882252574524729 / 2 ^ 58 := by
    have := nearest_eq (p := 53) (x := 1 / 49) (e := -6) (m := 5882252574524729) (by norm_num) (by norm_num) (by norm_num) (by norm_num)
    rw [this]
    norm_num
  have e4 : nearest 53 (5882252574524729 / 2 ^ 58 * 49) = (2 ^ 53 - 1) / 2 ^ 53 := by
    have := nearest_eq (p := 53) (x := 5882252574524729 / 2 ^ 58 * 49) (e := -1) (m := 2 ^ 53 - 1) (by norm_num) (by norm_num) (by norm_num) (by norm_num)
    rw [this]
    norm_num
  have e5 : nearest 53 ((2 ^ 53 - 1) / 2 ^ 53) = (2 ^ 53 - 1) / 2 ^ 53 := by
    have := nearest_exact (p := 53) (m := 2 ^ 53 - 1) (k := -53) (by norm_num)
    norm_num at this ⊢
    exact this
  rw [e1, show ((((50 : ℕ) : ℤ) - 1 : ℤ) : ℝ) = 49 by norm_num, show ((49 : ℕ) : ℝ) = 49 by norm_num, e2, e3, e4, zero_add, e5]
  norm_num

end Sg.Props
