import Verif.Proof.QuadIntersectRounded
import Verif.Proof.CellsInt
/-
A solver that meets the conditions of rounded arithmetic (Cramer's rule, the result rounded), and cells with small integer nodes.
-/
namespace Sg.Props
open Sg Sg.LinearSolve Sg.Triangulate Sg.QuadIntersect Sg.Spec Sg.Plane

section solver
variable {rnd : ℝ → ℝ}

open Classical in
/-- The exact solution of two equations, rounded. -/
noncomputable def nearGels (rnd : ℝ → ℝ) : Gels (Fl rnd) := fun r =>
  if r.b.length = 2 then
    if ∀ x ∈ r.a, x.val = 0 then { a := r.a, b := [0, 0], info := 0 }
    else if coef r 0 0 * coef r 1 1 - coef r 1 0 * coef r 0 1 = 0 then { a := r.a, b := r.b, info := 1 }
    else { a := r.a
           b := [⟨rnd ((coef r 1 1 * entry r.b 0 - coef r 1 0 * entry r.b 1) / (coef r 0 0 * coef r 1 1 - coef r 1 0 * coef r 0 1))⟩,
             ⟨rnd ((coef r 0 0 * entry r.b 1 - coef r 0 1 * entry r.b 0) / (coef r 0 0 * coef r 1 1 - coef r 1 0 * coef r 0 1))⟩]
           info := 0 }
  else { a := r.a, b := r.b, info := 0 }

theorem coef_mem {r : GelsArgs (Fl rnd)} (h : Two r) {i j : Nat} (hi : i < 2) (hj : j < 2) {S : ℝ} (hS : ∀ x ∈ r.a, |x.val| ≤ S) :
    |coef r i j| ≤ S := by
  unfold coef
  have hl : i + j * 2 < r.a.length := by rw [h.a]; omega
  rw [List.getD_eq_getElem?_getD, List.getElem?_eq_getElem hl, Option.getD_some]
  exact hS _ (List.getElem_mem hl)

theorem nearGels_stable {u : ℝ} (hr : Rounds rnd u 0) (hu : u ≤ 1 / 2) : GelsStable (nearGels rnd) (2 * u) := by
  have hu0 := hr.rel
  have close : ∀ x : ℝ, ∃ e, |e| ≤ 2 * u ∧ (1 + e) * rnd x = x := by
    intro x
    by_cases hx : x = 0
    · subst hx; exact ⟨0, by simpa using hu0, by rw [rnd_zero hr]; simp⟩
    · have h1 := rnd_near hr x
      have hne := rnd_ne_zero' hr (by linarith) hx
      refine ⟨(x - rnd x) / rnd x, ?_, by field_simp; ring⟩
      rw [abs_div, div_le_iff₀ (abs_pos.mpr hne), abs_sub_comm]
      have h2 := abs_add_le (rnd x) (x - rnd x)
      rw [add_sub_cancel, abs_sub_comm x] at h2
      have : 0 ≤ u * |x| := by positivity
      have h4 : |x| / 2 ≤ |rnd x| := by nlinarith [abs_nonneg x]
      nlinarith
  refine ⟨?_, ?_, ?_, ?_, ?_, ?_⟩
  · intro r
    unfold nearGels
    split
    · rename_i h
      split
      · exact ⟨rfl, by rw [h]; rfl⟩
      split
      · exact ⟨rfl, rfl⟩
      · exact ⟨rfl, by rw [h]; rfl⟩
    · exact ⟨rfl, rfl⟩
  · intro r h2 hz hinfo
    unfold nearGels at hinfo ⊢
    rw [if_pos h2.b, if_neg (by push Not; exact hz)] at hinfo ⊢
    split at hinfo
    · cases hinfo
    · rename_i hdet
      rw [if_neg hdet]
      obtain ⟨e0, b0, h0⟩ := close ((coef r 1 1 * entry r.b 0 - coef r 1 0 * entry r.b 1) / (coef r 0 0 * coef r 1 1 - coef r 1 0 * coef r 0 1))
      obtain ⟨e1, b1, h1⟩ := close ((coef r 0 0 * entry r.b 1 - coef r 0 1 * entry r.b 0) / (coef r 0 0 * coef r 1 1 - coef r 1 0 * coef r 0 1))
      refine ⟨fun i j => if i = 0 ∧ j < 2 then coef r 0 j * e0 else if i = 1 ∧ j < 2 then coef r 1 j * e1 else 0, ?_, ?_⟩
      · intro S hS i j
        have hS0 : 0 ≤ S := (abs_nonneg _).trans (coef_mem h2 (i := 0) (j := 0) (by norm_num) (by norm_num) hS)
        have m : ∀ {c e : ℝ}, |c| ≤ S → |e| ≤ 2 * u → |c * e| ≤ 2 * u * S := by
          intro c e hc he
          rw [abs_mul, mul_comm (2 * u)]
          exact mul_le_mul hc he (abs_nonneg _) hS0
        dsimp only
        split
        · rename_i h; exact m (coef_mem h2 (by norm_num) h.2 hS) b0
        split
        · rename_i h; exact m (coef_mem h2 (by norm_num) h.2 hS) b1
        · rw [abs_zero]; positivity
      · intro j hj
        set D := coef r 0 0 * coef r 1 1 - coef r 1 0 * coef r 0 1 with hD
        set X := (coef r 1 1 * entry r.b 0 - coef r 1 0 * entry r.b 1) / D with hX
        set Y := (coef r 0 0 * entry r.b 1 - coef r 0 1 * entry r.b 0) / D with hY
        have eX : X * D = coef r 1 1 * entry r.b 0 - coef r 1 0 * entry r.b 1 := div_mul_cancel₀ _ hdet
        have eY : Y * D = coef r 0 0 * entry r.b 1 - coef r 0 1 * entry r.b 0 := div_mul_cancel₀ _ hdet
        have s0 : entry [(⟨rnd X⟩ : Fl rnd), ⟨rnd Y⟩] 0 = rnd X := rfl
        have s1 : entry [(⟨rnd X⟩ : Fl rnd), ⟨rnd Y⟩] 1 = rnd Y := rfl
        have key : coef r 0 j * X + coef r 1 j * Y = entry r.b j := by
          refine mul_right_cancel₀ hdet ?_
          rw [add_mul, mul_assoc, mul_assoc, eX, eY, hD]
          interval_cases j <;> ring
        rw [s0, s1]
        simp only [hj, and_true, if_true, one_ne_zero, if_false]
        linear_combination key + coef r 0 j * h0 + coef r 1 j * h1
  · intro r h2 hinfo
    unfold nearGels at hinfo ⊢
    rw [if_pos h2.b] at hinfo ⊢
    split at hinfo
    · exact absurd rfl hinfo
    · rename_i hz
      split at hinfo
      · rename_i hdet
        rw [if_neg hz, if_pos hdet]
        refine ⟨by norm_num, fun _ _ => 0, ?_, by simpa using hdet⟩
        intro S hS i j
        have hS0 : 0 ≤ S := (abs_nonneg _).trans (coef_mem h2 (i := 0) (j := 0) (by norm_num) (by norm_num) hS)
        rw [abs_zero]; positivity
      · exact absurd rfl hinfo
  · intro r h2 hz hj
    unfold nearGels
    rw [if_pos h2.b, if_neg (by push Not; exact hz), if_pos]
    · norm_num
    · obtain ⟨j, hj, e0, e1⟩ := hj
      interval_cases j
      · rw [e0, e1]; ring
      · rw [e0, e1]; ring
  · intro r h2 hz hj
    unfold nearGels
    rw [if_pos h2.b, if_neg (by push Not; exact hz), if_pos]
    · norm_num
    · rw [hj 0 (by norm_num), hj 1 (by norm_num)]; ring
  · intro r h2 hz
    unfold nearGels
    rw [if_pos h2.b, if_pos hz]
    refine ⟨rfl, ?_⟩
    intro j hj
    interval_cases j <;> rfl

end solver

/-! ### Integer nodes -/

theorem tolClean2_frac {P : Set P2} (h : ∀ p ∈ P, IsFrac p) : TolClean2 P := by
  constructor
  · intro p hp q hq hne
    obtain ⟨X, Y, D, h1, h2, hx, hy⟩ := h p hp
    obtain ⟨X', Y', D', h1', h2', hx', hy'⟩ := h q hq
    have b1 : (1 : ℝ) ≤ D := by exact_mod_cast h1
    have b2 : (D : ℝ) ≤ 800 := by exact_mod_cast h2
    have b1' : (1 : ℝ) ≤ D' := by exact_mod_cast h1'
    have b2' : (D' : ℝ) ≤ 800 := by exact_mod_cast h2'
    have hDD : (D : ℝ) * D' ≤ 640000 := by nlinarith
    have hpos : (0 : ℝ) < D * D' := by positivity
    have key : ∀ t : ℝ, t ≠ 0 → (∃ n : ℤ, t * (D * D') = n) → (2 / 1000000000000 : ℝ) < t ^ 2 := by
      rintro t ht ⟨n, hn⟩
      have := one_le_abs_int hn (mul_ne_zero ht hpos.ne')
      rw [abs_mul, abs_of_pos hpos] at this
      have h3 : 1 ≤ |t| * 640000 := this.trans (mul_le_mul_of_nonneg_left hDD (abs_nonneg t))
      have h4 : (1 / 640000 : ℝ) ≤ |t| := by linarith
      have h5 : (1 / 640000 : ℝ) ^ 2 ≤ |t| ^ 2 := by gcongr
      rw [sq_abs] at h5
      refine lt_of_lt_of_le ?_ h5
      norm_num
    by_cases e1 : q.1 - p.1 = 0
    · have e2 : q.2 - p.2 ≠ 0 := by
        intro e2
        exact hne (Prod.ext (by linarith) (by linarith))
      have := key _ e2 ⟨Y' * D - Y * D', by push_cast; rw [← hy, ← hy']; ring⟩
      nlinarith [sq_nonneg (q.1 - p.1)]
    · have := key _ e1 ⟨X' * D - X * D', by push_cast; rw [← hx, ← hx']; ring⟩
      nlinarith [sq_nonneg (q.2 - p.2)]
  · intro p hp q hq r hr
    obtain ⟨X, Y, D, h1, h2, hx, hy⟩ := h p hp
    obtain ⟨X', Y', D', h1', h2', hx', hy'⟩ := h q hq
    obtain ⟨X'', Y'', D'', h1'', h2'', hx'', hy''⟩ := h r hr
    by_cases h0 : area2 p q r = 0
    · exact Or.inl h0
    · right
      have b1 : (1 : ℝ) ≤ D := by exact_mod_cast h1
      have b2 : (D : ℝ) ≤ 800 := by exact_mod_cast h2
      have b1' : (1 : ℝ) ≤ D' := by exact_mod_cast h1'
      have b2' : (D' : ℝ) ≤ 800 := by exact_mod_cast h2'
      have b1'' : (1 : ℝ) ≤ D'' := by exact_mod_cast h1''
      have b2'' : (D'' : ℝ) ≤ 800 := by exact_mod_cast h2''
      have hDD : (D : ℝ) * D' ≤ 640000 := by nlinarith
      have hpos' : (0 : ℝ) < D * D' := by positivity
      have hDDD : (D : ℝ) * D' * D'' ≤ 512000000 := by nlinarith
      have hpos : (0 : ℝ) < D * D' * D'' := by positivity
      have hn : area2 p q r * (D * D' * D'') = ((X' * Y'' * D - X' * Y * D'' - X * Y'' * D' - (Y' * X'' * D - Y' * X * D'' -
          Y * X'' * D') : ℤ) : ℝ) := by
        push_cast
        rw [← hx, ← hx', ← hx'', ← hy, ← hy', ← hy'', area2]
        ring
      have := one_le_abs_int hn (mul_ne_zero h0 hpos.ne')
      rw [abs_mul, abs_of_pos hpos] at this
      have h3 : 1 ≤ |area2 p q r| * 512000000 := this.trans (mul_le_mul_of_nonneg_left hDDD (abs_nonneg _))
      have h4 : (1 / 512000000 : ℝ) ≤ |area2 p q r| := by linarith
      refine lt_of_lt_of_le ?_ h4
      norm_num

/-- Coordinates between 0 and `N`. -/
abbrev ZWithin (N : ℤ) (z : Fin 4 → ℤ × ℤ) : Prop := ∀ i, 0 ≤ (z i).1 ∧ (z i).1 ≤ N ∧ 0 ≤ (z i).2 ∧ (z i).2 ≤ N

/-- Both triangles of the cut are proper. -/
abbrev ZProper (z : Fin 4 → ℤ × ℤ) : Prop := zcross (z 0) (z 1) (z 3) ≠ 0 ∧ zcross (z 2) (z 3) (z 1) ≠ 0

/-- Parallel edges are along an axis or on different lines. -/
abbrev ZApart (z1 z2 : Fin 4 → ℤ × ℤ) : Prop := ∀ i j : Fin 4,
  ((z1 (i + 1)).1 - (z1 i).1) * ((z2 (j + 1)).2 - (z2 j).2) - ((z1 (i + 1)).2 - (z1 i).2) * ((z2 (j + 1)).1 - (z2 j).1) = 0 →
  ((z1 i).1 = (z1 (i + 1)).1 ∧ (z2 j).1 = (z2 (j + 1)).1) ∨ ((z1 i).2 = (z1 (i + 1)).2 ∧ (z2 j).2 = (z2 (j + 1)).2) ∨
  (0 < zcross (z1 i) (z1 (i + 1)) (z2 j) ∧ 0 < zcross (z1 i) (z1 (i + 1)) (z2 (j + 1))) ∨
  (zcross (z1 i) (z1 (i + 1)) (z2 j) < 0 ∧ zcross (z1 i) (z1 (i + 1)) (z2 (j + 1)) < 0)

theorem dist_within {N : ℤ} {a b : ℤ × ℤ} (ha : 0 ≤ a.1 ∧ a.1 ≤ N ∧ 0 ≤ a.2 ∧ a.2 ≤ N) (hb : 0 ≤ b.1 ∧ b.1 ≤ N ∧ 0 ≤ b.2 ∧ b.2 ≤ N) :
    dist ((a.1 : ℝ), (a.2 : ℝ)) ((b.1 : ℝ), (b.2 : ℝ)) ≤ N := by
  rw [Prod.dist_eq, Real.dist_eq, Real.dist_eq]
  obtain ⟨a1, a2, a3, a4⟩ := ha
  obtain ⟨b1, b2, b3, b4⟩ := hb
  have : ∀ {x y : ℤ}, 0 ≤ x → x ≤ N → 0 ≤ y → y ≤ N → |(x : ℝ) - y| ≤ N := by
    intro x y h1 h2 h3 h4
    rw [abs_le]
    constructor
    · exact_mod_cast (by omega : -N ≤ x - y)
    · exact_mod_cast (by omega : x - y ≤ N)
  exact max_le (this a1 a2 b1 b2) (this a3 a4 b3 b4)

theorem frac_gap2 {m k : ℤ} {u : ℝ} (hm : m ≠ 0) (hb : |m| ≤ 800) (hu : u * m = k) (hneg : u < 0) :
    u ≤ -(1 / 800) := by
  have hb' : |(m : ℝ)| ≤ 800 := by rw [← Int.cast_abs]; exact_mod_cast hb
  have hne : u * (m : ℝ) ≠ 0 := mul_ne_zero hneg.ne (by exact_mod_cast hm)
  have h1 := one_le_abs_int hu hne
  rw [abs_mul, abs_of_neg hneg] at h1
  have : -u * |(m : ℝ)| ≤ -u * 800 := mul_le_mul_of_nonneg_left hb' (by linarith)
  linarith

theorem clearSign2_frac {m k : ℤ} {u : ℝ} (hm : m ≠ 0) (hb : |m| ≤ 800) (hu : u * m = k) : ClearSign2 u := by
  rcases lt_or_ge u 0 with h | h
  · have := frac_gap2 hm hb hu h
    right; norm_num at *; linarith
  · exact Or.inl h

theorem clearParam2_frac {m k : ℤ} {u : ℝ} (hm : m ≠ 0) (hb : |m| ≤ 800) (hu : u * m = k) : ClearParam2 u := by
  rcases le_or_gt u 0 with h | h
  · exact Or.inl h
  rcases le_or_gt 1 u with h1 | h1
  · exact Or.inr (Or.inr h1)
  have e1 := frac_gap2 (m := m) (k := -k) (u := -u) hm hb (by push_cast; linarith) (by linarith)
  have e2 := frac_gap2 (m := m) (k := k - m) (u := u - 1) hm hb (by push_cast; linarith) (by linarith)
  exact Or.inr (Or.inl ⟨by norm_num at *; linarith, by norm_num at *; linarith⟩)

theorem clearOfSides2_int {a b c p : ℤ × ℤ} (hb : |zcross a b c| ≤ 800) :
    ClearOfSides2 (a.1, a.2) (b.1, b.2) (c.1, c.2) (p.1, p.2) := by
  intro hne u v w hsum hp
  have hm := zcross_ne hne
  have hx : (p.1 : ℝ) = u * a.1 + v * b.1 + w * c.1 := congrArg Prod.fst hp
  have hy : (p.2 : ℝ) = u * a.2 + v * b.2 + w * c.2 := congrArg Prod.snd hp
  have hu : u = 1 - v - w := by linarith
  refine ⟨clearSign2_frac hm hb (k := zcross p b c) ?_, clearSign2_frac hm hb (k := zcross a p c) ?_,
    clearSign2_frac hm hb (k := zcross a b p) ?_⟩ <;>
  · simp only [zcross]; push_cast; rw [hx, hy, hu]; ring

theorem area2_zcross (a b c : ℤ × ℤ) : area2 ((a.1 : ℝ), (a.2 : ℝ)) (b.1, b.2) (c.1, c.2) = (zcross a b c : ℝ) := by
  simp only [area2, zcross]; push_cast; ring

theorem cross_within {N x y z w : ℤ} (hN : N ≤ 20) (hx : |x| ≤ N) (hy : |y| ≤ N) (hz : |z| ≤ N) (hw : |w| ≤ N) : |x * y - z * w| ≤ 800 := by
  have hmul : ∀ u v : ℤ, |u| ≤ N → |v| ≤ N → |u * v| ≤ 400 := by
    intro u v hu hv
    rw [abs_mul]
    exact (mul_le_mul (hu.trans hN) (hv.trans hN) (abs_nonneg _) (by norm_num)).trans (by norm_num)
  have e1 := hmul x y hx hy
  have e2 := hmul z w hz hw
  rw [abs_le] at e1 e2 ⊢
  omega

/-- Convex cells with small integer nodes, proper triangles and no common lines but along the axes are safe. -/
theorem safePair_int {N : ℤ} {z1 z2 : Fin 4 → ℤ × ℤ} {Δ : ℝ} (hN : N ≤ 20) (h0 : 0 < Δ) (hΔ : Δ * N ^ 2 ≤ 1) (c1 : ZConvex z1)
    (c2 : ZConvex z2) (s1 : ZWithin N z1) (s2 : ZWithin N z2) (p1 : ZProper z1) (p2 : ZProper z2) (hap : ZApart z1 z2) :
    SafePair Δ (zquad z1) (zquad z2) := by
  have hN0 : 0 ≤ N := by have := s1 0; omega
  have hNr : (0 : ℝ) ≤ N := by exact_mod_cast hN0
  have one : ∀ {n : ℤ} {d : ℝ}, n ≠ 0 → 0 ≤ d → d ≤ N → Δ * d ^ 2 ≤ |(n : ℝ)| := by
    intro n d hn hd hdN
    have h1 : (1 : ℝ) ≤ |(n : ℝ)| := one_le_abs_int rfl (by exact_mod_cast hn)
    have h2 : d ^ 2 ≤ (N : ℝ) ^ 2 := by gcongr
    have := mul_le_mul_of_nonneg_left h2 h0.le
    linarith
  have shaped : ∀ {z : Fin 4 → ℤ × ℤ}, ZWithin N z → ∀ i j k, zcross (z i) (z j) (z k) ≠ 0 →
      ShapedBy Δ (zquad z i) (zquad z j) (zquad z k) := by
    intro z hz i j k hne
    left
    have e : area2 (zquad z i) (zquad z j) (zquad z k) = (zcross (z i) (z j) (z k) : ℝ) := area2_zcross _ _ _
    rw [e]
    exact ⟨by exact_mod_cast hne, one hne dist_nonneg (dist_within (hz i) (hz j)), one hne dist_nonneg (dist_within (hz i) (hz k))⟩
  have hd : ∀ {z : Fin 4 → ℤ × ℤ}, ZWithin N z → ∀ i j, |(z j).1 - (z i).1| ≤ N ∧ |(z j).2 - (z i).2| ≤ N := by
    intro z h i j
    have := h i; have := h j
    constructor <;> (rw [abs_le]; omega)
  have hcb : ∀ {z : Fin 4 → ℤ × ℤ}, ZWithin N z → ∀ i j k, |zcross (z i) (z j) (z k)| ≤ 800 := by
    intro z h i j k
    exact cross_within hN (hd h i j).1 (hd h i k).2 (hd h i j).2 (hd h i k).1
  refine ⟨⟨zquad_convex c1, zquad_convex c2⟩, ⟨shaped s1 _ _ _ p1.1, shaped s1 _ _ _ p1.2⟩,
    ⟨shaped s2 _ _ _ p2.1, shaped s2 _ _ _ p2.2⟩, ?_, ?_, ?_⟩
  · exact fun i => ⟨clearOfSides2_int (hcb s2 _ _ _), clearOfSides2_int (hcb s2 _ _ _)⟩
  · exact fun i => ⟨clearOfSides2_int (hcb s1 _ _ _), clearOfSides2_int (hcb s1 _ _ _)⟩
  · intro i j
    set m : ℤ := ((z1 (i + 1)).1 - (z1 i).1) * ((z2 (j + 1)).2 - (z2 j).2) -
      ((z1 (i + 1)).2 - (z1 i).2) * ((z2 (j + 1)).1 - (z2 j).1) with hmdef
    have hmb : |m| ≤ 800 := cross_within hN (hd s1 _ _).1 (hd s2 _ _).2 (hd s1 _ _).2 (hd s2 _ _).1
    have da : dist (zquad z1 i) (zquad z1 (i + 1)) ≤ N := dist_within (s1 _) (s1 _)
    have db : dist (zquad z2 j) (zquad z2 (j + 1)) ≤ N := dist_within (s2 _) (s2 _)
    have dab : dist (zquad z1 i) (zquad z2 j) ≤ N := dist_within (s1 _) (s2 _)
    by_cases hm : m = 0
    · have hmar : Δ / 10 ^ 12 * (dist (zquad z1 i) (zquad z1 (i + 1)) + dist (zquad z2 j) (zquad z2 (j + 1)) +
          dist (zquad z1 i) (zquad z2 j)) ^ 2 < 1 := by
        have e1 : (dist (zquad z1 i) (zquad z1 (i + 1)) + dist (zquad z2 j) (zquad z2 (j + 1)) +
          dist (zquad z1 i) (zquad z2 j)) ^ 2 ≤ (3 * (N : ℝ)) ^ 2 := by
          gcongr
          linarith
        have e2 := mul_le_mul_of_nonneg_left e1 (show 0 ≤ Δ / 10 ^ 12 by positivity)
        have e3 : Δ / 10 ^ 12 * (3 * (N : ℝ)) ^ 2 = 9 / 10 ^ 12 * (Δ * N ^ 2) := by ring
        rw [e3] at e2
        norm_num at *
        linarith
      have ea : ∀ k, area2 (zquad z1 i) (zquad z1 (i + 1)) (zquad z2 k) = (zcross (z1 i) (z1 (i + 1)) (z2 k) : ℝ) :=
        fun k => area2_zcross _ _ _
      rcases hap i j hm with ⟨h1, h2⟩ | ⟨h1, h2⟩ | ⟨h1, h2⟩ | ⟨h1, h2⟩
      · left; exact ⟨by simp only [zquad]; exact_mod_cast h1, by simp only [zquad]; exact_mod_cast h2⟩
      · right; left; exact ⟨by simp only [zquad]; exact_mod_cast h1, by simp only [zquad]; exact_mod_cast h2⟩
      · right; right; left; left
        rw [ea, ea]
        have g1 : (1 : ℝ) ≤ zcross (z1 i) (z1 (i + 1)) (z2 j) := by exact_mod_cast h1
        have g2 : (1 : ℝ) ≤ zcross (z1 i) (z1 (i + 1)) (z2 (j + 1)) := by exact_mod_cast h2
        exact ⟨by linarith, by linarith⟩
      · right; right; left; right
        rw [ea, ea]
        have g1 : (zcross (z1 i) (z1 (i + 1)) (z2 j) : ℝ) ≤ -1 := by exact_mod_cast (by omega : zcross (z1 i) (z1 (i + 1)) (z2 j) ≤ -1)
        have g2 : (zcross (z1 i) (z1 (i + 1)) (z2 (j + 1)) : ℝ) ≤ -1 := by
          exact_mod_cast (by omega : zcross (z1 i) (z1 (i + 1)) (z2 (j + 1)) ≤ -1)
        exact ⟨by linarith, by linarith⟩
    · right; right; right; right
      have em : ((zquad z1 (i + 1)).1 - (zquad z1 i).1) * ((zquad z2 (j + 1)).2 - (zquad z2 j).2) -
          ((zquad z1 (i + 1)).2 - (zquad z1 i).2) * ((zquad z2 (j + 1)).1 - (zquad z2 j).1) = (m : ℝ) := by
        rw [hmdef]; simp only [zquad]; push_cast; ring
      rw [em]
      refine ⟨by exact_mod_cast hm, one hm dist_nonneg da, one hm dist_nonneg db, ?_⟩
      intro s t heq
      have hx : ((z1 i).1 : ℝ) + s * ((z1 (i + 1)).1 - (z1 i).1) = (z2 j).1 + t * ((z2 (j + 1)).1 - (z2 j).1) :=
        congrArg Prod.fst heq
      have hy : ((z1 i).2 : ℝ) + s * ((z1 (i + 1)).2 - (z1 i).2) = (z2 j).2 + t * ((z2 (j + 1)).2 - (z2 j).2) :=
        congrArg Prod.snd heq
      refine ⟨clearParam2_frac hm hmb (k := ((z2 j).1 - (z1 i).1) * ((z2 (j + 1)).2 - (z2 j).2) -
        ((z2 j).2 - (z1 i).2) * ((z2 (j + 1)).1 - (z2 j).1)) ?_,
        clearParam2_frac hm hmb (k := ((z2 j).1 - (z1 i).1) * ((z1 (i + 1)).2 - (z1 i).2) -
        ((z2 j).2 - (z1 i).2) * ((z1 (i + 1)).1 - (z1 i).1)) ?_⟩
      · rw [hmdef]; push_cast
        linear_combination ((z2 (j + 1)).2 - (z2 j).2 : ℝ) * hx - ((z2 (j + 1)).1 - (z2 j).1 : ℝ) * hy
      · rw [hmdef]; push_cast
        linear_combination ((z1 (i + 1)).2 - (z1 i).2 : ℝ) * hx - ((z1 (i + 1)).1 - (z1 i).1 : ℝ) * hy

theorem corner_frac {z1 z2 : Fin 4 → ℤ × ℤ} (s1 : ZTiny z1) (s2 : ZTiny z2) : TolClean2 (cornerPoints (zquad z1) (zquad z2)) := by
  refine tolClean2_frac ?_
  rintro p (⟨i, rfl, -⟩ | ⟨i, rfl, -⟩ | ⟨i, j, hdet, h1, h2⟩)
  · exact isFrac_int (z1 i)
  · exact isFrac_int (z2 i)
  · exact isFrac_crossing s1 s2 hdet h1 h2

end Sg.Props
