import Verif.Proof.RoundedEven
import Verif.Props.AwayRounding
import Verif.Props.RegularRounding
import Verif.Props.FlowInterpRounding
import Verif.Props.MonotoneRounding
import Verif.Props.ConserveRounding
/-
Property C164: rounding as processors do it, halves to the even neighbour.
-/
namespace Sg.Props
open Sg Sg.LinearSolve Sg.FindPoint Sg.Spec Sg.NodeInterp

theorem nearestEven_ints (p : Nat) (hp : 1 ≤ p) : KeepsInts (nearestEven p) (2 ^ p - 1) where
  mono := nearestEven_mono hp
  int k hk := by
    have h1 : 1 ≤ 2 ^ p := Nat.one_le_two_pow
    have := nearestEven_exact (p := p) (m := k) (k := 0) (by rw [abs_of_nonneg (by positivity)]; exact_mod_cast (show k < 2 ^ p by omega))
    simpa using this

theorem even53_consts : KeepsConsts (nearestEven 53) where
  two := by have := nearestEven_exact (p := 53) (m := 1) (k := 1) (by norm_num); norm_num at this; exact this
  half := by have := nearestEven_exact (p := 53) (m := 1) (k := -1) (by norm_num); norm_num at this; norm_num; exact this
  tera := by have := nearestEven_exact (p := 53) (m := 1000000000000) (k := 0) (by norm_num); norm_num at this; exact this

theorem even_neg_one : nearestEven 53 (-1) = -1 := by
  have := nearestEven_exact (p := 53) (m := -1) (k := 0) (by norm_num)
  simpa using this

theorem even_gels : GelsStable (nearGels (nearestEven 53)) (2 ^ (-(52 : ℤ))) := by
  have := nearGels_stable (nearestEven_rounds 53) (by norm_num)
  norm_num at this ⊢
  exact this

/-- **C164** What this rounding is: with `p` digits, the result is a number `m 2^k` with `|m| < 2^p`, and no such number is nearer. -/
theorem C164_nearest {p : Nat} (hp : 1 ≤ p) (x : ℝ) :
    (∃ m k : ℤ, |m| < 2 ^ p ∧ nearestEven p x = m * 2 ^ k) ∧ ∀ m k : ℤ, |m| < 2 ^ p → |nearestEven p x - x| ≤ |(m : ℝ) * 2 ^ k - x| := by
  by_cases hx : x = 0
  · subst hx
    have h0 : nearestEven p 0 = 0 := nearestEven_zero p
    rw [h0]
    exact ⟨⟨0, 0, by simp, by simp⟩, fun m k _ => by rw [sub_zero, abs_zero]; exact abs_nonneg _⟩
  obtain ⟨h1, h2⟩ := log_bounds hx
  have hc := ulp_pos p x
  have hp1 := pow_ulp p x
  have hp0 : (2 : ℝ) ^ (p - 1) * ulp p x = 2 ^ Int.log 2 |x| := by
    have e : (2 : ℝ) ^ p = 2 * 2 ^ (p - 1) := by rw [← pow_succ']; congr 1; omega
    rw [e, zpow_add₀ (by norm_num), zpow_one] at hp1
    linarith
  have hxz : x / ulp p x * ulp p x = x := div_mul_cancel₀ _ hc.ne'
  set z := x / ulp p x with hz
  have habs : |z| * ulp p x = |x| := by rw [← hxz, abs_mul, abs_of_pos hc, hxz]
  -- whole multiples of the distance are not nearer
  have whole : ∀ n : ℤ, |nearestEven p x - x| ≤ |(n : ℝ) * ulp p x - x| := by
    intro n
    have e : ∀ r : ℝ, r * ulp p x - x = (r - z) * ulp p x := fun r => by rw [sub_mul, hxz]
    unfold nearestEven
    rw [e, e, abs_mul, abs_mul]
    refine mul_le_mul_of_nonneg_right ?_ (abs_nonneg _)
    by_cases hn : n = roundEven z
    · rw [hn]
    · have a := abs_sub_roundEven z
      rw [abs_sub_comm] at a
      have b : (1 : ℝ) ≤ |(n : ℝ) - roundEven z| := by
        have : 1 ≤ |n - roundEven z| := Int.one_le_abs (sub_ne_zero.2 hn)
        exact_mod_cast this
      have c : |(n : ℝ) - roundEven z| ≤ |(n : ℝ) - z| + |z - roundEven z| := abs_sub_le _ _ _
      rw [abs_sub_comm z] at c
      linarith
  constructor
  · have hb : |roundEven z| ≤ 2 ^ p := by
      have hzp : |z| ≤ ((2 ^ p : ℤ) : ℝ) := by
        push_cast
        have : |z| * ulp p x ≤ 2 ^ p * ulp p x := by rw [habs, hp1]; exact h2.le
        exact le_of_mul_le_mul_right this hc
      rw [abs_le] at hzp ⊢
      exact ⟨le_roundEven_of (by push_cast at hzp ⊢; exact hzp.1), roundEven_le_of hzp.2⟩
    rcases hb.lt_or_eq with hlt | heq
    · exact ⟨roundEven z, _, hlt, rfl⟩
    · have hone : |(1 : ℤ)| < 2 ^ p := by rw [abs_one]; exact one_lt_pow₀ (by norm_num) (by omega)
      rcases (abs_eq (by positivity)).1 heq with h | h
      · refine ⟨1, Int.log 2 |x| + 1, hone, ?_⟩
        unfold nearestEven
        rw [← hz, h, ← hp1]
        push_cast; ring
      · refine ⟨-1, Int.log 2 |x| + 1, by rw [abs_neg]; exact hone, ?_⟩
        unfold nearestEven
        rw [← hz, h, ← hp1]
        push_cast; ring
  · intro m k hm
    by_cases hk : Int.log 2 |x| + 1 - p ≤ k
    · obtain ⟨j, hj⟩ : ∃ j : ℕ, k = (Int.log 2 |x| + 1 - p) + j := ⟨(k - (Int.log 2 |x| + 1 - p)).toNat, by omega⟩
      have e : (m : ℝ) * 2 ^ k = ((m * 2 ^ j : ℤ) : ℝ) * ulp p x := by
        unfold ulp
        rw [hj, zpow_add₀ (by norm_num), zpow_natCast]
        push_cast; ring
      rw [e]
      exact whole _
    · have hsmall : |(m : ℝ) * 2 ^ k| ≤ 2 ^ Int.log 2 |x| := by
        rw [abs_mul, abs_of_pos (show (0 : ℝ) < 2 ^ k by positivity)]
        have a : |(m : ℝ)| ≤ 2 ^ p := by exact_mod_cast hm.le
        have b : (2 : ℝ) ^ k ≤ 2 ^ (Int.log 2 |x| - p) := zpow_le_zpow_right₀ (by norm_num) (by omega)
        refine (mul_le_mul a b (by positivity) (by positivity)).trans (le_of_eq ?_)
        rw [← zpow_natCast, ← zpow_add₀ (by norm_num)]
        congr 1
        ring
      have hmy := (abs_le.1 hsmall)
      rcases lt_or_gt_of_ne hx with hneg | hpos
      · refine (whole (-2 ^ (p - 1))).trans ?_
        push_cast
        rw [neg_mul, hp0]
        rw [abs_of_neg hneg] at h1 hmy ⊢
        rw [abs_of_nonneg (by linarith), abs_of_nonneg (by linarith)]
        linarith
      · refine (whole (2 ^ (p - 1))).trans ?_
        push_cast
        rw [hp0]
        rw [abs_of_pos hpos] at h1 hmy ⊢
        rw [abs_of_nonpos (by linarith), abs_of_nonpos (by linarith)]
        linarith

/-- For instance one third, which has no finite expansion. -/
example : (∃ m k : ℤ, |m| < 2 ^ 53 ∧ nearestEven 53 (1 / 3) = m * 2 ^ k) ∧
    ∀ m k : ℤ, |m| < 2 ^ 53 → |nearestEven 53 (1 / 3) - 1 / 3| ≤ |(m : ℝ) * 2 ^ k - 1 / 3| :=
  C164_nearest (by norm_num) _

section nodes

/-- **C164** With halves rounded to even: values of a linear field in double precision, with source values up to `Φ` that are within `δ` of it (as C155). -/
theorem C164_linear (g : Gels (Fl (nearestEven 53))) (hg : KeepsSizes g)
    (nitermax : Int) (tolpos : Fl (nearestEven 53)) (htol : 0 ≤ tolpos.val) (dims : Fin 2 → Nat) (hd : ∀ i, 2 ≤ dims i ∧ dims i ≤ 2 ^ 30) (per : Fin 2 → Int)
    (coords : Fin 2 → Nat → Fl (nearestEven 53)) (M : ℝ) (hM0 : 0 ≤ M) (hM : ∀ i, ∀ m < dims 0 * dims 1, |(coords i m).val| ≤ M)
    (dd : Fin 2 → Nat) (dc : Fin 2 → Nat → Fl (nearestEven 53)) (b0 : ℝ) (b : Fin 2 → ℝ) (δ : ℝ) (src dst : List (Fl (nearestEven 53)))
    (hsrc : src.length = dims 0 * dims 1)
    (hfield : ∀ m < dims 0 * dims 1, ∃ v, src[m]? = some v ∧ |v.val - (b0 + ∑ i, b i * (coords i m).val)| ≤ δ)
    (hdst : dst.length = dd 0 * dd 1) (Φ : ℝ) (hΦ0 : 0 ≤ Φ) (hΦ : ∀ v ∈ src, |v.val| ≤ Φ) :
    ∃ o d, (((new nitermax tolpos).setSrcGrid dims per coords).setDstGrid dd dc).computeWeights g = .ok o ∧ o.apply src dst = .ok d ∧
      ∀ k iw, (k, iw) ∈ o.weights → ∃ v, d[k]? = some v ∧
        |v.val - (b0 + ∑ i, b i * (dc i k).val)| ≤
          Real.sqrt (∑ i, b i ^ 2) * (tolpos.val + 2 / 10 ^ 15 * (tolpos.val + M)) + δ + 2 / 10 ^ 15 * Φ := by
  obtain ⟨o, d, ho, h1, h2⟩ := C155_linear (nearestEven_rounds 53) (by norm_num) (nearestEven_ints 53 (by norm_num)) (by norm_num) g hg nitermax tolpos dims hd per coords M hM0 hM
    dd dc b0 b δ src dst hsrc hfield hdst Φ hΦ
  refine ⟨o, d, ho, h1, fun k iw hk => ?_⟩
  obtain ⟨v, hv, hb⟩ := h2 k iw hk
  refine ⟨v, hv, hb.trans ?_⟩
  have e1 := mul_le_mul_of_nonneg_left (roundedTol_double tolpos.val M htol hM0) (Real.sqrt_nonneg (∑ i, b i ^ 2))
  have e2 : ((1 + 2 ^ (-((53 : Nat) : ℤ))) ^ 11 - 1) * Φ ≤ 2 / 10 ^ 15 * Φ := mul_le_mul_of_nonneg_right (by norm_num) hΦ0
  linarith

/-- **C164** With halves rounded to even, in double precision: the margin is the tolerance, and `2 10^-15` times the tolerance and the largest coordinate. -/
theorem C164_away (g : Gels (Fl (nearestEven 53))) (hg : KeepsSizes g)
    (nitermax : Int) (tolpos : Fl (nearestEven 53)) (htol : 0 ≤ tolpos.val) (dims : Fin 2 → Nat) (hd : ∀ i, 2 ≤ dims i ∧ dims i ≤ 2 ^ 30) (per : Fin 2 → Int)
    (coords : Fin 2 → Nat → Fl (nearestEven 53)) (M : ℝ) (hM0 : 0 ≤ M) (hM : ∀ i, ∀ m < dims 0 * dims 1, |(coords i m).val| ≤ M)
    (dd : Fin 2 → Nat) (dc : Fin 2 → Nat → Fl (nearestEven 53)) (src dst : List (Fl (nearestEven 53))) (hsrc : src.length = dims 0 * dims 1)
    (hdst : dst.length = dd 0 * dd 1) :
    ∃ o d, (((new nitermax tolpos).setSrcGrid dims per coords).setDstGrid dd dc).computeWeights g = .ok o ∧ o.apply src dst = .ok d ∧
      ∀ k, Away dims coords (tolpos.val + 2 / 10 ^ 15 * (tolpos.val + M)) (fun i => dc i k) → (∀ iw, (k, iw) ∉ o.weights) ∧ d[k]? = dst[k]? := by
  obtain ⟨o, d, ho, ha, h⟩ := C158_away (nearestEven_rounds 53) (by norm_num) (nearestEven_ints 53 (by norm_num)) (by norm_num) g hg nitermax tolpos dims hd per coords M hM0 hM
    dd dc src dst hsrc hdst
  refine ⟨o, d, ho, ha, fun k ⟨v, hv⟩ => h k ⟨v, fun m hm => ?_⟩⟩
  have e1 := mul_le_mul_of_nonneg_left (roundedTol_double tolpos.val M htol hM0) (Real.sqrt_nonneg (v 0 ^ 2 + v 1 ^ 2))
  exact (add_le_add_right e1 _).trans_lt (hv m hm)

/-- **C164** In double precision with halves rounded to even, data that are nowhere smaller give values that are nowhere smaller. -/
theorem C164_order (g : Gels (Fl (nearestEven 53))) (hg : KeepsSizes g)
    (nitermax : Int) (tolpos : Fl (nearestEven 53)) (dims : Fin 2 → Nat) (hd : ∀ i, 2 ≤ dims i ∧ dims i ≤ 2 ^ 30) (per : Fin 2 → Int)
    (coords : Fin 2 → Nat → Fl (nearestEven 53)) (dd : Fin 2 → Nat) (dc : Fin 2 → Nat → Fl (nearestEven 53)) (src src' dst dst' : List (Fl (nearestEven 53)))
    (hsrc : src.length = dims 0 * dims 1) (hsrc' : src'.length = dims 0 * dims 1) (hdst : dst.length = dd 0 * dd 1) (hdst' : dst'.length = dd 0 * dd 1)
    (hs : List.Forall₂ (fun a b => a.val ≤ b.val) src src') (ht : List.Forall₂ (fun a b => a.val ≤ b.val) dst dst') :
    ∃ o f f', (((new nitermax tolpos).setSrcGrid dims per coords).setDstGrid dd dc).computeWeights g = .ok o ∧ o.apply src dst = .ok f ∧
      o.apply src' dst' = .ok f' ∧ List.Forall₂ (fun a b => a.val ≤ b.val) f f' :=
  C162_apply (nearestEven_ints 53 (by norm_num)) (even_neg_one) (by norm_num) g hg nitermax tolpos dims hd per coords dd dc src src' dst dst'
    hsrc hsrc' hdst hdst' hs ht

/-- The hypotheses are met: the unit square as source grid, and the point `(3, 3)`, which its diagonal direction separates from the square. The caller's 7 stays. -/
example : ∃ o d, (((new 2 (⟨1⟩ : Fl (nearestEven 53))).setSrcGrid ![2, 2] ![0, 0] squareNodes).setDstGrid ![1, 1] (fun _ _ => ⟨3⟩)).computeWeights
    stepBack = .ok o ∧ o.apply ((List.range 4).map (squareNodes 0)) [⟨7⟩] = .ok d ∧ (∀ iw, (0, iw) ∉ o.weights) ∧ d[0]? = some ⟨7⟩ := by
  have hd : ∀ i : Fin 2, 2 ≤ (![2, 2] : Fin 2 → Nat) i ∧ (![2, 2] : Fin 2 → Nat) i ≤ 2 ^ 30 := by intro i; fin_cases i <;> simp
  have hb : ∀ i m, |(squareNodes i m : Fl (nearestEven 53)).val| ≤ 1 := by
    intro i m
    unfold squareNodes
    split_ifs <;> norm_num
  obtain ⟨o, d, ho, ha, h⟩ := C164_away stepBack (fun r => ⟨rfl, by simp [stepBack]⟩) 2 ⟨1⟩ zero_le_one ![2, 2] hd ![0, 0] squareNodes 1 zero_le_one
    (fun i m _ => hb i m) ![1, 1] (fun _ _ => ⟨3⟩) ((List.range 4).map (squareNodes 0)) [⟨7⟩] rfl rfl
  refine ⟨o, d, ho, ha, h 0 ⟨![1, 1], fun m _ => ?_⟩⟩
  have h0 := (abs_le.1 (hb 0 m)).2
  have h1 := (abs_le.1 (hb 1 m)).2
  have hs : Real.sqrt ((![1, 1] : Fin 2 → ℝ) 0 ^ 2 + (![1, 1] : Fin 2 → ℝ) 1 ^ 2) ≤ 2 := by
    rw [Real.sqrt_le_left (by norm_num)]
    simp only [Matrix.cons_val_zero, Matrix.cons_val_one]
    norm_num
  have hs' := mul_le_mul_of_nonneg_right hs (show (0 : ℝ) ≤ 1 + 2 / 10 ^ 15 * (1 + 1) by norm_num)
  simp only [Matrix.cons_val_zero, Matrix.cons_val_one] at hs' ⊢
  norm_num at hs' ⊢
  linarith

/-- The hypotheses are met: one cell of the unit square, a node at its corner, data 1, 2, 3, 4 and 1, 2, 5, 7. -/
example : ∃ o f f', (((new 2 (⟨1⟩ : Fl (nearestEven 53))).setSrcGrid ![2, 2] ![0, 0] squareNodes).setDstGrid ![1, 1] (fun _ _ => ⟨0⟩)).computeWeights stepBack = .ok o ∧
    o.apply [⟨1⟩, ⟨2⟩, ⟨3⟩, ⟨4⟩] [⟨0⟩] = .ok f ∧ o.apply [⟨1⟩, ⟨2⟩, ⟨5⟩, ⟨7⟩] [⟨0⟩] = .ok f' ∧ List.Forall₂ (fun a b => a.val ≤ b.val) f f' :=
  C164_order stepBack (fun r => ⟨rfl, by simp [stepBack]⟩) 2 ⟨1⟩ ![2, 2] (by intro i; fin_cases i <;> simp) ![0, 0] squareNodes ![1, 1] (fun _ _ => ⟨0⟩) _ _ _ _
    (by simp) (by simp) (by simp) (by simp) (by norm_num) (by norm_num)

end nodes

section regular
open Sg.Regular
variable {L : ℝ} {A : Fin 2 → Fin 2 → ℝ} {c : Fin 2 → ℝ} {dims : Fin 2 → Nat}

/-- Double precision, for lines of up to 1000 nodes and coordinates up to 1000 times the distance of nodes. -/
theorem fine_even (g : Gels (Fl (nearestEven 53))) (hg : GelsStable g (2 ^ (-(52 : ℤ)))) (hL : 0 < L) (hA : ∀ i j, |A i j| ≤ L)
    (hdet : 1 / 2 * L ^ 2 ≤ |A 0 0 * A 1 1 - A 0 1 * A 1 0|) :
    FineEnough (nearestEven 53) g (2 ^ 53 - 1) (2 ^ (-((53 : Nat) : ℤ))) (2 ^ (-(52 : ℤ))) (1 / 2) (2 / 10 ^ 13 * L) L (1000 * L) 1000 A ∧
      (1 + 2 ^ (-((53 : Nat) : ℤ)) : ℝ) ^ 6 * (Real.sqrt 2 * missError (2 ^ (-((53 : Nat) : ℤ))) (2 ^ (-(52 : ℤ))) (1 / 2) (2 / 10 ^ 13 * L) (2 / 10 ^ 13 * L) L
        (1000 * L) 1000 (firstError (2 ^ (-((53 : Nat) : ℤ))) (2 ^ (-(52 : ℤ))) (1 / 2) (2 / 10 ^ 13 * L) (2 / 10 ^ 13 * L) L (1000 * L) 1000)) < 1 / 10 ^ 10 * L := by
  have hu : (2 : ℝ) ^ (-((53 : Nat) : ℤ)) = 1 / 2 ^ 53 := by norm_num
  have hb : (2 : ℝ) ^ (-(52 : ℤ)) = 1 / 2 ^ 52 := by norm_num
  have hr := nearestEven_rounds 53
  rw [hu] at hr
  rw [hb] at hg
  rw [hu, hb]
  have hspot : spotError (1 / 2 ^ 53) (2 / 10 ^ 13 * L) (1000 * L) =
      (2 / 10 ^ 13 + (((1 : ℝ) + 1 / 2 ^ 53) ^ 11 - 1) * 1000) * L := by unfold spotError; ring
  have hslant : slantError (1 / 2 ^ 53) (2 / 10 ^ 13 * L) L (1000 * L) =
      (5 * (1 / 2 ^ 53) + 11 * (2 / 10 ^ 13 + (((1 : ℝ) + 1 / 2 ^ 53) ^ 11 - 1) * 1000)) * L := by unfold slantError; rw [hspot]; ring
  set a : ℝ := 2 / 10 ^ 13 + (((1 : ℝ) + 1 / 2 ^ 53) ^ 11 - 1) * 1000 with ha
  have ha0 : 0 ≤ a := by rw [ha]; norm_num
  have ha1 : a ≤ 15 / 10 ^ 13 := by rw [ha]; norm_num
  set b : ℝ := 5 * (1 / 2 ^ 53) + 11 * a with hb'
  have hb0 : 0 ≤ b := by rw [hb']; positivity
  have hb1 : b ≤ 17 / 10 ^ 12 := by rw [hb']; linarith
  have hsys : systemError (1 / 2 ^ 53) (1 / 2 ^ 52) (2 / 10 ^ 13 * L) L (1000 * L) = (b + 1 / 2 ^ 52 * (1 + b)) * L := by
    unfold systemError; rw [hslant]; ring
  set s : ℝ := b + 1 / 2 ^ 52 * (1 + b) with hs
  have hs0 : 0 ≤ s := by rw [hs]; positivity
  have hs1 : s ≤ 18 / 10 ^ 12 := by rw [hs]; linarith
  refine ⟨⟨hr, nearestEven_ints 53 (by norm_num), ?_, by norm_num, hg, by norm_num, by norm_num, hL, hA, hdet, by norm_num, ?_⟩, ?_⟩
  · have := nearestEven_exact (p := 53) (m := 1) (k := -1) (by norm_num)
    norm_num at this ⊢
    exact this
  · rw [hsys]
    nlinarith
  · have hstep : ∀ δ, stepError (1 / 2 ^ 53) (1 / 2 ^ 52) (1 / 2) (2 / 10 ^ 13 * L) (2 / 10 ^ 13 * L) L (1000 * L) δ =
        8 * (2 / 10 ^ 13 + a + 1 / 2 ^ 53 * (2 * δ + 2 / 10 ^ 13 + a) + 2 * δ * s) := by
      intro δ
      unfold stepError shiftError
      rw [hspot, hsys]
      field_simp
      ring
    have hland : ∀ δ, landError (1 / 2 ^ 53) (1 / 2 ^ 52) (1 / 2) (2 / 10 ^ 13 * L) (2 / 10 ^ 13 * L) L (1000 * L) 1000 δ =
        8 * (2 / 10 ^ 13 + a + 1 / 2 ^ 53 * (2 * δ + 2 / 10 ^ 13 + a) + 2 * δ * s) + 1 / 2 ^ 53 * (1000 +
          8 * (2 / 10 ^ 13 + a + 1 / 2 ^ 53 * (2 * δ + 2 / 10 ^ 13 + a) + 2 * δ * s)) := by
      intro δ
      unfold landError
      rw [hstep]
    unfold missError firstError
    rw [hspot]
    set δ := landError (1 / 2 ^ 53) (1 / 2 ^ 52) (1 / 2) (2 / 10 ^ 13 * L) (2 / 10 ^ 13 * L) L (1000 * L) 1000 1000 with hδ
    have hδ1 : 0 ≤ δ ∧ δ ≤ 1 / 10 ^ 6 := by
      rw [hδ, hland]
      constructor
      · positivity
      · norm_num
    have hδs : 0 ≤ δ * s ∧ δ * s ≤ 1 / 10 ^ 6 * (18 / 10 ^ 12) := ⟨mul_nonneg hδ1.1 hs0, mul_le_mul hδ1.2 hs1 hs0 (by norm_num)⟩
    set δ2 := landError (1 / 2 ^ 53) (1 / 2 ^ 52) (1 / 2) (2 / 10 ^ 13 * L) (2 / 10 ^ 13 * L) L (1000 * L) 1000 δ with hδ2
    have hδ21 : 0 ≤ δ2 ∧ δ2 ≤ 15 / 10 ^ 12 := by
      rw [hδ2, hland]
      obtain ⟨p1, p2⟩ := hδ1
      obtain ⟨q1, q2⟩ := hδs
      constructor
      · positivity
      · have e : 2 * δ * s = 2 * (δ * s) := by ring
        rw [e]
        norm_num at q2 p2 ha1 ⊢
        linarith
    have hsq : Real.sqrt 2 ≤ 3 / 2 := by
      rw [Real.sqrt_le_iff]; norm_num
    have hm : a * L + 2 * L * δ2 + 2 / 10 ^ 13 * L = (a + 2 * δ2 + 2 / 10 ^ 13) * L := by ring
    rw [hm]
    have hmb : a + 2 * δ2 + 2 / 10 ^ 13 ≤ 4 / 10 ^ 11 := by
      norm_num at hδ21 ha1 ⊢
      linarith [hδ21.2]
    have hm0 : 0 ≤ a + 2 * δ2 + 2 / 10 ^ 13 := by
      have := hδ21.1
      positivity
    have h6 : ((1 : ℝ) + 1 / 2 ^ 53) ^ 6 ≤ 101 / 100 := by norm_num
    have t1 : Real.sqrt 2 * ((a + 2 * δ2 + 2 / 10 ^ 13) * L) ≤ 3 / 2 * (4 / 10 ^ 11 * L) :=
      mul_le_mul hsq (mul_le_mul_of_nonneg_right hmb hL.le) (mul_nonneg hm0 hL.le) (by norm_num)
    have t2 : ((1 : ℝ) + 1 / 2 ^ 53) ^ 6 * (Real.sqrt 2 * ((a + 2 * δ2 + 2 / 10 ^ 13) * L)) ≤ 101 / 100 * (3 / 2 * (4 / 10 ^ 11 * L)) :=
      mul_le_mul h6 t1 (mul_nonneg (Real.sqrt_nonneg _) (mul_nonneg hm0 hL.le)) (by norm_num)
    refine t2.trans_lt ?_
    nlinarith

/-- **C164** In double precision with halves rounded to even: on source grids of up to 1000 by 1000 nodes with straight equidistant lines, not too slanted and not too far from the origin, with
the tolerance `10^-10` times the distance of nodes and three steps allowed, every destination node that lies in the source grid gets weights. -/
theorem C164_found (g : Gels (Fl (nearestEven 53))) (hg : GelsStable g (2 ^ (-(52 : ℤ)))) (hL : 0 < L) (hA : ∀ i j, |A i j| ≤ L)
    (hdet : 1 / 2 * L ^ 2 ≤ |A 0 0 * A 1 1 - A 0 1 * A 1 0|) {coords : Fin 2 → Nat → Fl (nearestEven 53)} (hd : ∀ i, 2 ≤ dims i ∧ dims i ≤ 1000)
    (hgr : RegularGrid dims coords c A (2 / 10 ^ 13 * L) (1000 * L)) (nitermax : Int) (hnit : 3 ≤ nitermax) (tolpos : Fl (nearestEven 53))
    (htol : 1 / 10 ^ 10 * L ≤ tolpos.val) (dd : Fin 2 → Nat) (dc : Fin 2 → Nat → Fl (nearestEven 53)) :
    ∃ o, (((new nitermax tolpos).setSrcGrid dims (fun _ => 0) coords).setDstGrid dd dc).computeWeights g = .ok o ∧
      ∀ k < dd 0 * dd 1, ∀ x, InRegular dims coords c A (2 / 10 ^ 13 * L) (fun i => dc i k) x → ∃ iw, (k, iw) ∈ o.weights := by
  obtain ⟨H, ht⟩ := fine_even g hg hL hA hdet
  obtain ⟨o, ho, h⟩ := C157_weights (ρ := 2 / 10 ^ 13 * L) H (by norm_num) (fun i => ⟨(hd i).1, (hd i).2.trans (by norm_num)⟩) (fun i => by exact_mod_cast (hd i).2) hgr nitermax hnit
    tolpos (ht.trans_le htol) dd dc
  refine ⟨o, ho, fun k hk x hx => ?_⟩
  obtain ⟨iw, -, hm, -⟩ := h k hk x hx
  exact ⟨iw, hm⟩

/-- The lattice of 1000 by 800 points with whole coordinates. -/
noncomputable def evenLattice : Fin 2 → Nat → Fl (nearestEven 53) := fun i m => ⟨![((m / 800 : Nat) : ℝ), ((m % 800 : Nat) : ℝ)] i⟩

/-- The lattice meets the hypotheses. -/
theorem evenLattice_regular : RegularGrid ![1000, 800] evenLattice (fun _ => 0) !![1, (0 : ℝ); 0, 1] (2 / 10 ^ 13 * 1) (1000 * 1) := by
  constructor
  · intro p q _ hq i
    have hq' : q < 800 := hq
    have e1 : (p * 800 + q) / 800 = p := by omega
    have e2 : (p * 800 + q) % 800 = q := by omega
    show |![(((p * 800 + q) / 800 : Nat) : ℝ), (((p * 800 + q) % 800 : Nat) : ℝ)] i - _| ≤ _
    rw [e1, e2]
    fin_cases i <;> simp [image] <;> norm_num
  · intro i m hm
    have hm' : m < 1000 * 800 := hm
    have h1 : ((m / 800 : Nat) : ℝ) ≤ 1000 := by exact_mod_cast (show m / 800 ≤ 1000 by omega)
    have h2 : ((m % 800 : Nat) : ℝ) ≤ 1000 := by exact_mod_cast (show m % 800 ≤ 1000 by omega)
    have h3 : (0 : ℝ) ≤ ((m / 800 : Nat) : ℝ) := Nat.cast_nonneg _
    have h4 : (0 : ℝ) ≤ ((m % 800 : Nat) : ℝ) := Nat.cast_nonneg _
    fin_cases i
    · show |((m / 800 : Nat) : ℝ)| ≤ _
      rw [abs_of_nonneg h3]; linarith
    · show |((m % 800 : Nat) : ℝ)| ≤ _
      rw [abs_of_nonneg h4]; linarith

theorem evenLattice_point (x : Fin 2 → ℝ) (hx : ∀ i, nearestEven 53 (x i) = x i) (h : ∀ i, 0 ≤ x i ∧ x i ≤ 799) :
    InRegular ![1000, 800] evenLattice (fun _ => 0) !![1, (0 : ℝ); 0, 1] (2 / 10 ^ 13 * 1) (fun i => ⟨x i⟩) x where
  number := hx
  box i := by
    refine ⟨0, by simp, 799 * 800 + 799, by simp, ?_, ?_⟩
    · have : (evenLattice i 0).val = 0 := by unfold evenLattice; fin_cases i <;> simp
      rw [this]; exact (h i).1
    · have : (evenLattice i (799 * 800 + 799)).val = 799 := by unfold evenLattice; fin_cases i <;> norm_num
      rw [this]; exact (h i).2
  grid i := by
    obtain ⟨h0, h1⟩ := h i
    refine ⟨h0, ?_⟩
    fin_cases i
    · show x 0 ≤ ((1000 : Nat) : ℝ) - 1
      have : x 0 ≤ 799 := h1
      push_cast; linarith
    · show x 1 ≤ ((800 : Nat) : ℝ) - 1
      have : x 1 ≤ 799 := h1
      push_cast; linarith
  near i := by
    fin_cases i <;> simp [image] <;> norm_num

/-- The hypotheses are met: source grid the lattice, tolerance `2^-32`, one destination node, at (5/2, 29/4). -/
example : ∃ o, (((new 10 (⟨2 ^ (-32 : ℤ)⟩ : Fl (nearestEven 53))).setSrcGrid ![1000, 800] (fun _ => 0) evenLattice).setDstGrid ![1, 1]
      fun i _ => ⟨(![5 / 2, 29 / 4] : Fin 2 → ℝ) i⟩).computeWeights (nearGels (nearestEven 53)) = .ok o ∧ ∃ iw, (0, iw) ∈ o.weights := by
  obtain ⟨o, ho, h⟩ := C164_found (L := 1) (A := !![1, (0 : ℝ); 0, 1]) (c := fun _ => 0) (dims := ![1000, 800]) (nearGels (nearestEven 53)) even_gels one_pos
    (by intro i j; fin_cases i <;> fin_cases j <;> simp) (by simp; norm_num) (by intro i; fin_cases i <;> norm_num) evenLattice_regular 10 (by norm_num)
    ⟨2 ^ (-32 : ℤ)⟩ (by norm_num) ![1, 1] (fun i _ => ⟨(![5 / 2, 29 / 4] : Fin 2 → ℝ) i⟩)
  refine ⟨o, ho, h 0 (by simp) ![5 / 2, 29 / 4] (evenLattice_point _ ?_ ?_)⟩
  · intro i
    fin_cases i
    · have := nearestEven_exact (p := 53) (m := 5) (k := -1) (by norm_num)
      norm_num at this ⊢
      exact this
    · have := nearestEven_exact (p := 53) (m := 29) (k := -2) (by norm_num)
      norm_num at this ⊢
      exact this
  · intro i
    fin_cases i <;> norm_num

end regular

section cells
open Sg.Triangulate Sg.QuadIntersect Sg.Conserve Sg.Plane MeasureTheory

/-- A solver that is backward stable with the constant 2^-52 is accurate enough for quadrilaterals that are not too flat. -/
theorem solvesFinely_even {g : Gels (Fl (nearestEven 53))} (hg : GelsStable g (2 ^ (-(52 : ℤ)))) :
    SolvesFinely (nearestEven 53) g (2 ^ (-(53 : ℤ))) (2 ^ (-(52 : ℤ))) (1 / 4) where
  rounds := nearestEven_rounds 53
  consts := even53_consts
  unit := by norm_num
  pos := by norm_num
  shape := by norm_num
  small := by norm_num [solveError]
  stable := hg

theorem fineBy_even : FineBy (nearestEven 53) (2 ^ (-(53 : ℤ))) 0 (crossError (2 ^ (-(53 : ℤ))) (2 ^ (-(52 : ℤ))) (1 / 4) 2 16) 2 where
  rounds := nearestEven_rounds 53
  consts := even53_consts
  near := by norm_num [crossError, solveError]
  size := by norm_num
  small := by norm_num [crossError, solveError, sumError, prodError, diffError]

/-- **C164** In double precision with halves rounded to even, with a solver that is backward stable with the constant 2^-52, cells of size 2 at most at coordinates up
to 16, of area `A` at least 1/1000: any computed weight is within `3e-11 / A + 1e-13` of the covered fraction. -/
theorem C164_weights (g : Gels (Fl (nearestEven 53))) (hg : GelsStable g (2 ^ (-(52 : ℤ))))
    (sort : List (Pt (Fl (nearestEven 53))) → List (Pt (Fl (nearestEven 53)))) (hsort : ∀ l, IsStdSort l (sort l))
    (ddims sdims per : Nat × Nat) (dx dy sx sy : List (Fl (nearestEven 53)))
    (hd : 1 ≤ ddims.1 ∧ 1 ≤ ddims.2) (hs : 1 ≤ sdims.1 ∧ 1 ≤ sdims.2)
    (hdx : ddims.1 * ddims.2 ≤ dx.length) (hdy : ddims.1 * ddims.2 ≤ dy.length)
    (hsx : sdims.1 * sdims.2 ≤ sx.length) (hsy : sdims.1 * sdims.2 ≤ sy.length)
    (hcells : ∀ i < cellCount ddims, SizedBy 2 16 (gridCell ddims (flVals dx) (flVals dy) i) ∧
      TolClean2 (Set.range (gridCell ddims (flVals dx) (flVals dy) i)) ∧
      1 / 1000 ≤ area (quadRegion (gridCell ddims (flVals dx) (flVals dy) i)))
    (hpairs : ∀ i < cellCount ddims, ∀ j < cellCount sdims,
      SafePair (1 / 4) (gridCell ddims (flVals dx) (flVals dy) i) (gridCell sdims (flVals sx) (flVals sy) j) ∧
      TolClean2 (cornerPoints (gridCell ddims (flVals dx) (flVals dy) i) (gridCell sdims (flVals sx) (flVals sy) j)))
    (o o' : Interp (Fl (nearestEven 53))) (h0 : o.weights = [])
    (h : setAndCompute g sort .keptBuffer o ddims dx dy sdims per sx sy = .ok o') (i : Nat) (hi : i < cellCount ddims) (j : Nat)
    (hj : j < cellCount sdims) :
    |(weightOf o'.weights i j).val - overlapFraction (gridCell ddims (flVals dx) (flVals dy) i) (gridCell sdims (flVals sx) (flVals sy) j)| ≤
      3 / 10 ^ 11 / area (quadRegion (gridCell ddims (flVals dx) (flVals dy) i)) + 1 / 10 ^ 13 :=
  (C111_weights (solvesFinely_even hg) fineBy_even sort hsort ddims sdims per dx dy sx sy hd hs hdx hdy hsx hsy
    (fun i hi j hj => ⟨(hpairs i hi j hj).1, (hcells i hi).1, (hcells i hi).2.1, (hpairs i hi j hj).2,
      (cellError_double (hcells i hi).2.2).1⟩) o o' h0 h i hi j hj).trans
    (cellError_double (hcells i hi).2.2).2

/-- C164 in double precision: weights are computed and all of them are within 2e-11 of one half.  The crossing at (1, 1) is an edge
crossing of all four pairs. -/
example : ∃ o' : Interp (Fl (nearestEven 53)), setAndCompute (nearGels (nearestEven 53)) flSort .keptBuffer
      { src := none, dst := none, weights := [], it := none, it2 := none } (3, 2) (flList colX) (flList colY) (2, 3) (0, 0) (flList rowX)
      (flList rowY) = .ok o' ∧
    ∀ i < 2, ∀ j < 2, |(weightOf o'.weights i j).val - 1 / 2| ≤ 2 / 10 ^ 11 := by
  have hbig : ∀ i < cellCount (3, 2), 1 / 1000 ≤ area (quadRegion (gridCell (3, 2) (flVals (flList colX : List (Fl (nearestEven 53))))
      (flVals (flList colY : List (Fl (nearestEven 53)))) i)) := fun i hi => by rw [(col_cells i hi).2.2]; norm_num
  obtain ⟨o', h⟩ := C111_exists (solvesFinely_even even_gels) fineBy_even flSort flSort_ok (3, 2) (2, 3) (0, 0)
    (flList colX) (flList colY) (flList rowX) (flList rowY) (by decide) (by decide) (by simp [flList, colX]) (by simp [flList, colY])
    (by simp [flList, rowX]) (by simp [flList, rowY])
    (fun i hi j hj => ⟨(col_row_pairs i hi j hj).1, (col_cells i hi).1, (col_cells i hi).2.1, (col_row_pairs i hi j hj).2,
      (cellError_double (hbig i hi)).1⟩) (by decide) (fun i hi j hj => Or.inl (by rw [col_row_area i hi j hj]; norm_num))
    { src := none, dst := none, weights := [], it := none, it2 := none }
  refine ⟨o', h, fun i hi j hj => ?_⟩
  have := C164_weights (nearGels (nearestEven 53)) even_gels flSort flSort_ok (3, 2) (2, 3) (0, 0)
    (flList colX) (flList colY) (flList rowX) (flList rowY) (by decide) (by decide) (by simp [flList, colX]) (by simp [flList, colY])
    (by simp [flList, rowX]) (by simp [flList, rowY]) (fun i hi => ⟨(col_cells i hi).1, (col_cells i hi).2.1, hbig i hi⟩)
    col_row_pairs _ o' rfl h i hi j hj
  rw [overlapFraction, col_row_area i hi j hj, (col_cells i hi).2.2] at this
  exact this.trans (by norm_num)

end cells

section flows
open Sg.FlowInterp Sg.QuadIntersect Sg.QuadFlows Sg.Triangulate Sg.QuadLine Sg.Plane
variable {L : ℝ}

/-- A solver that is backward stable with the constant 2^-52 is accurate enough. -/
theorem solvesLine_even {g : Gels (Fl (nearestEven 53))} (hg : GelsStable g (2 ^ (-(52 : ℤ)))) :
    SolvesLine (nearestEven 53) g (2 ^ (-(53 : ℤ))) (2 ^ (-(52 : ℤ))) (1 / 2) where
  solves := { rounds := nearestEven_rounds 53, consts := even53_consts, unit := by norm_num, pos := by norm_num, shape := by norm_num,
              small := by norm_num [solveError], stable := hg }
  unit := by norm_num
  shape := by norm_num
  small := by rw [lineTol_val]; norm_num [solveError]

theorem searchesFinely_even {g : Gels (Fl (nearestEven 53))} (hg : GelsStable g (2 ^ (-(52 : ℤ)))) (h1 : 1 / 100 ≤ L) (h2 : L ≤ 1) :
    SearchesFinely (nearestEven 53) g (2 ^ (-(53 : ℤ))) (2 ^ (-(52 : ℤ))) (1 / 2) (flowPointError (2 ^ (-(53 : ℤ))) L 40) L 40 where
  rounds := nearestEven_rounds 53
  ints := ⟨(nearestEven_ints 53 (by norm_num)).mono, fun k hk => (nearestEven_ints 53 (by norm_num)).int k (by omega)⟩
  half := even53_consts.half
  unit := by norm_num
  pos := by norm_num
  shape := by norm_num
  size := by linarith
  point := (flowPoint_double h1 h2).1
  stable := hg
  regular := by
    have := (slope_double40 h1 h2).1
    norm_num at this ⊢
    linarith
  found := by
    have hi := index_double40 h1 h2
    have hp := (flowPoint_double h1 h2).2
    have hL : 0 < L := by linarith
    set ρ := flowPointError (2 ^ (-(53 : ℤ))) L 40
    have h3 : L * indexError (2 ^ (-(53 : ℤ))) (2 ^ (-(52 : ℤ))) (1 / 2) ρ L 40 ≤ 15 / 10 ^ 13 := by
      have := mul_le_mul_of_nonneg_left hi hL.le
      rwa [mul_div_cancel₀ _ hL.ne'] at this
    have := (slope_double40 h1 h2).2.2
    norm_num at this h3 hp ⊢
    linarith
  inside := by
    have hp := (flowPoint_double h1 h2).2
    norm_num at hp ⊢
    linarith

/-- **C164** In double precision with halves rounded to even, with a solver that is backward stable with the constant 2^-52, cells and segments of size `L` (0.01 to 1) at most and
coordinates up to 40: the error of a flow is at most `3e-11/L` plus 3e-15 for each cell, times the numbers on the edges. -/
theorem C164_flows (g : Gels (Fl (nearestEven 53))) (hg : GelsStable g (2 ^ (-(52 : ℤ)))) (hL1 : 1 / 100 ≤ L) (hL2 : L ≤ 1)
    (pert : Nat → Nat → Nat → Fl (nearestEven 53)) (srt : List (Fl (nearestEven 53)) → List (Fl (nearestEven 53))) (hsrt : ∀ l, SortsTo l (srt l)) (n0 n1 : Nat)
    (h0 : 2 ≤ n0) (h1 : 2 ≤ n1) (hfit : n0 * n1 ≤ 1073741824) (xs ys : List (Fl (nearestEven 53))) (hx : n0 * n1 ≤ xs.length) (hy : n0 * n1 ≤ ys.length)
    (n : Nat) (hn : 1 ≤ n) (us vs : List (Fl (nearestEven 53))) (hu : n ≤ us.length) (hv : n ≤ vs.length) (x y : List (Fl (nearestEven 53)))
    (hxl : (n0 - 1) * n1 ≤ x.length) (hyl : n0 * (n1 - 1) ≤ y.length) (d : List (Fl (nearestEven 53))) (hd : n - 1 ≤ d.length) :
    ∃ d', flowWith pert g srt [] n0 n1 xs ys n us vs 1 x y d = .ok d' ∧
      ∀ k < n - 1, ∀ a b, a = storedNode pert n us vs k → b = storedNode pert n us vs (k + 1) →
        (∀ i < n0 - 1, ∀ j < n1 - 1, FairFlow (1 / 2) L 40 (gridQuad n1 (flVals xs) (flVals ys) i j) a b) →
        (∃ i < n0 - 1, ∃ j < n1 - 1, ∃ s ∈ insideParams (gridQuad n1 (flVals xs) (flVals ys) i j) a b,
          ∃ t ∈ insideParams (gridQuad n1 (flVals xs) (flVals ys) i j) a b, lineTol ≤ |s - t|) →
        ∃ f, d'[k]? = some f ∧
          |f.val - ∑ i ∈ Finset.range (n0 - 1), ∑ j ∈ Finset.range (n1 - 1),
            fieldIntegral (gridQuad n1 (flVals xs) (flVals ys) i j) (edgeData n1 (flVals x) (flVals y) i j) a b| ≤
          (3 / 10 ^ 11 / L + 3 / 10 ^ 15 * ((n0 - 1) * (n1 - 1) : Nat)) * edgeSize n0 n1 (flVals x) (flVals y) := by
  obtain ⟨d', e, hd'⟩ := C116_integral (solvesLine_even hg) (searchesFinely_even hg hL1 hL2) (flow_double hL1 hL2).1 pert srt hsrt n0 n1 h0 h1 hfit
    xs ys hx hy n hn us vs hu hv x y hxl hyl d hd
  refine ⟨d', e, fun k hk a b ea eb hfair hsome => ?_⟩
  obtain ⟨f, ef, hfl⟩ := hd' k hk a b ea eb hfair hsome
  exact ⟨f, ef, hfl.trans (mul_le_mul_of_nonneg_right (flowTotal_double hL1 hL2 h0 h1 hfit) (edgeSize_nonneg _ _ _ _))⟩

/-- **C164** for a potential, in double precision. -/
theorem C164_potential (g : Gels (Fl (nearestEven 53))) (hg : GelsStable g (2 ^ (-(52 : ℤ)))) (hL1 : 1 / 100 ≤ L) (hL2 : L ≤ 1)
    (pert : Nat → Nat → Nat → Fl (nearestEven 53)) (srt : List (Fl (nearestEven 53)) → List (Fl (nearestEven 53))) (hsrt : ∀ l, SortsTo l (srt l)) (n0 n1 : Nat)
    (h0 : 2 ≤ n0) (h1 : 2 ≤ n1) (hfit : n0 * n1 ≤ 1073741824) (xs ys : List (Fl (nearestEven 53))) (hx : n0 * n1 ≤ xs.length) (hy : n0 * n1 ≤ ys.length)
    (n : Nat) (hn : 1 ≤ n) (us vs : List (Fl (nearestEven 53))) (hu : n ≤ us.length) (hv : n ≤ vs.length) (phi : Nat → Nat → ℝ)
    (x y : List (Fl (nearestEven 53))) (hp : PotentialData n0 n1 phi (flVals x) (flVals y)) (Φ : ℝ × ℝ → ℝ)
    (hΦ : ∀ i < n0 - 1, ∀ j < n1 - 1, ∀ t, InCell t → Φ (pointAt (gridQuad n1 (flVals xs) (flVals ys) i j) t) = bilin (cellPhi phi i j) t)
    (d : List (Fl (nearestEven 53))) (hd : n - 1 ≤ d.length) :
    ∃ d', flowWith pert g srt [] n0 n1 xs ys n us vs 1 x y d = .ok d' ∧
      ∀ k < n - 1, ∀ a b, a = storedNode pert n us vs k → b = storedNode pert n us vs (k + 1) →
        (∀ p ∈ segment ℝ a b, ∃ i < n0 - 1, ∃ j < n1 - 1, p ∈ quadRegion (gridQuad n1 (flVals xs) (flVals ys) i j)) →
        (∀ i < n0 - 1, ∀ j < n1 - 1, ∀ i' < n0 - 1, ∀ j' < n1 - 1, (i, j) ≠ (i', j') →
          (insideParams (gridQuad n1 (flVals xs) (flVals ys) i j) a b ∩ insideParams (gridQuad n1 (flVals xs) (flVals ys) i' j') a b).Subsingleton) →
        (∀ i < n0 - 1, ∀ j < n1 - 1, FairFlow (1 / 2) L 40 (gridQuad n1 (flVals xs) (flVals ys) i j) a b) →
        ∃ f, d'[k]? = some f ∧
          |f.val - (Φ b - Φ a)| ≤ (3 / 10 ^ 11 / L + 3 / 10 ^ 15 * ((n0 - 1) * (n1 - 1) : Nat)) * edgeSize n0 n1 (flVals x) (flVals y) := by
  obtain ⟨d', e, hd'⟩ := C116_potential (solvesLine_even hg) (searchesFinely_even hg hL1 hL2) (flow_double hL1 hL2).1 pert srt hsrt n0 n1 h0 h1 hfit
    xs ys hx hy n hn us vs hu hv phi x y hp Φ hΦ d hd
  refine ⟨d', e, fun k hk a b ea eb hcov honce hfair => ?_⟩
  obtain ⟨f, ef, hfl⟩ := hd' k hk a b ea eb hcov honce hfair
  exact ⟨f, ef, hfl.trans (mul_le_mul_of_nonneg_right (flowTotal_double hL1 hL2 h0 h1 hfit) (edgeSize_nonneg _ _ _ _))⟩

/-- From (1/2, 1/2) to (3/2, 1/2), so through both cells, with the potential `x + 2 y`: the flow is 1, up to 1e-9. -/
example : ∃ d' f, flowWith (fun _ _ _ => (⟨0⟩ : Fl (nearestEven 53))) (nearGels (nearestEven 53)) lamSort [] 3 2 twoX twoY 2 [⟨1 / 2⟩, ⟨3 / 2⟩] [⟨1 / 2⟩, ⟨1 / 2⟩] 1
    [⟨1⟩, ⟨1⟩, ⟨1⟩, ⟨1⟩] [⟨2⟩, ⟨2⟩, ⟨2⟩] [⟨7⟩] = .ok d' ∧ d'[0]? = some f ∧ |f.val - 1| ≤ 1 / 10 ^ 9 := by
  have hh : nearestEven 53 (1 / 2) = 1 / 2 := even53_consts.half
  have h32 : nearestEven 53 (3 / 2) = 3 / 2 := by
    have := nearestEven_exact (p := 53) (m := 3) (k := -1) (by norm_num)
    norm_num at this ⊢
    exact this
  obtain ⟨d', e, hd'⟩ := C164_potential (L := 1) (nearGels (nearestEven 53)) even_gels (by norm_num) (by norm_num) (fun _ _ _ => ⟨0⟩) lamSort
    lamSort_ok 3 2 (by norm_num) (by norm_num) (by norm_num) twoX twoY (by simp [twoX]) (by simp [twoY]) 2 (by norm_num) [⟨1 / 2⟩, ⟨3 / 2⟩]
    [⟨1 / 2⟩, ⟨1 / 2⟩] (by simp) (by simp) (fun i j => (i : ℝ) + 2 * j) [⟨1⟩, ⟨1⟩, ⟨1⟩, ⟨1⟩] [⟨2⟩, ⟨2⟩, ⟨2⟩]
    ⟨by simp [flVals], by simp [flVals], by
      intro i j hi hj
      have hi : i < 2 := hi
      interval_cases i <;> interval_cases j <;> norm_num [xEdge, flVals], by
      intro i j hi hj
      have hj : j < 1 := hj
      interval_cases i <;> interval_cases j <;> norm_num [yEdge, flVals]⟩ (fun p => p.1 + 2 * p.2)
    (by
      intro i hi j hj t _
      have hi : i < 2 := hi
      obtain rfl : j = 0 := by omega
      rw [two_cell hi]
      norm_num [unitBox, pointAt, bilin, cellPhi, cellNode]
      ring) [⟨7⟩] (by simp)
  obtain ⟨f, ef, hfl⟩ := hd' 0 (by norm_num) (1 / 2, 1 / 2) (3 / 2, 1 / 2)
    (by
      show _ = (nearestEven 53 (1 / 2 + 0), nearestEven 53 (1 / 2 + 0))
      rw [add_zero, hh])
    (by
      show _ = (nearestEven 53 (3 / 2 + 0), nearestEven 53 (1 / 2 + 0))
      rw [add_zero, add_zero, hh, h32])
    (by
      intro p hp
      obtain ⟨s, h0, h1, rfl⟩ := mem_segment_iff.mp hp
      by_cases hs : s ≤ 1 / 2
      · refine ⟨0, by norm_num, 0, by norm_num, ?_⟩
        rw [two_cell (by norm_num), mem_box]
        norm_num
        constructor <;> linarith
      · refine ⟨1, by norm_num, 0, by norm_num, ?_⟩
        rw [two_cell (by norm_num), mem_box]
        norm_num
        constructor <;> linarith)
    (by
      intro i hi j hj i' hi' j' hj' hne s hs t ht
      have hi : i < 2 := hi
      have hi' : i' < 2 := hi'
      obtain rfl : j = 0 := by omega
      obtain rfl : j' = 0 := by omega
      rw [two_cell hi, two_cell hi'] at hs ht
      obtain ⟨⟨-, -, s1⟩, -, -, s2⟩ := hs
      obtain ⟨⟨-, -, t1⟩, -, -, t2⟩ := ht
      rw [mem_box] at s1 s2 t1 t2
      interval_cases i <;> interval_cases i' <;> first | exact absurd rfl hne | (norm_num at s1 s2 t1 t2; linarith))
    (by
      intro i hi j hj
      have hi : i < 2 := hi
      obtain rfl : j = 0 := by omega
      rw [two_cell hi]
      exact two_fair hi)
  refine ⟨d', f, e, ef, ?_⟩
  have hsz : edgeSize 3 2 (flVals ([⟨1⟩, ⟨1⟩, ⟨1⟩, ⟨1⟩] : List (Fl (nearestEven 53)))) (flVals ([⟨2⟩, ⟨2⟩, ⟨2⟩] : List (Fl (nearestEven 53)))) = 12 := by
    norm_num [edgeSize, Finset.sum_range_succ, Fin.sum_univ_four, edgeData, flVals, xEdge, yEdge]
  rw [hsz] at hfl
  norm_num at hfl ⊢
  linarith

end flows

end Sg.Props
