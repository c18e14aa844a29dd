import Verif.Spec.RoundedPlane
import Verif.Proof.TriangulateRun
import Verif.Proof.Loops
/-
The triangulation in rounded arithmetic takes the decisions of the triangulation in exact arithmetic.
-/
namespace Sg

theorem Cxx.Rel.bind {α β γ δ : Type} {R : α → β → Prop} {S : γ → δ → Prop} {x : Cxx α} {y : Cxx β} {f : α → Cxx γ} {g : β → Cxx δ}
    (h : Cxx.Rel R x y) (hf : ∀ a b, R a b → Cxx.Rel S (f a) (g b)) : Cxx.Rel S (x >>= f) (y >>= g) := by
  rcases h with ⟨a, b, rfl, rfl, hR⟩ | ⟨e, rfl, rfl⟩
  · exact hf a b hR
  · exact Or.inr ⟨e, rfl, rfl⟩

theorem Cxx.Rel.ok {α β : Type} {R : α → β → Prop} {a : α} {b : β} (h : R a b) : Cxx.Rel R (.ok a) (.ok b) := Or.inl ⟨a, b, rfl, rfl, h⟩

theorem Cxx.Rel.eq {α : Type} {x y : Cxx α} (h : Cxx.Rel Eq x y) : x = y := by
  rcases h with ⟨a, b, rfl, rfl, rfl⟩ | ⟨e, rfl, rfl⟩ <;> rfl

theorem Cxx.Rel.of_eq {α : Type} {x y : Cxx α} (h : x = y) : Cxx.Rel Eq x y := by
  subst h
  cases x with
  | ok a => exact Or.inl ⟨a, a, rfl, rfl, rfl⟩
  | error e => exact Or.inr ⟨e, rfl, rfl⟩

namespace Triangulate
open Sg.Spec Sg.Plane MeasureTheory

variable {rnd : ℝ → ℝ} {u η ρ D : ℝ}

theorem fl_lt {a b : Fl rnd} : a < b ↔ a.val < b.val := Iff.rfl
theorem fl_neg (a : Fl rnd) : (-a).val = -a.val := rfl

/-! ### Errors -/

section errors
variable (hf : FineBy rnd u η ρ D)
include hf

theorem diffError_nonneg : 0 ≤ diffError u η ρ D := by
  have := hf.rounds.rel; have := hf.rounds.abs; have := hf.near; have := hf.size
  unfold diffError; positivity

theorem prodError_nonneg : 0 ≤ prodError u η ρ D := by
  have := hf.rounds.rel; have := hf.rounds.abs; have := hf.size; have := diffError_nonneg hf
  unfold prodError; positivity

theorem sumError_nonneg : 0 ≤ sumError u η ρ D := by
  have := hf.rounds.rel; have := hf.rounds.abs; have := hf.size; have := prodError_nonneg hf
  unfold sumError; positivity

theorem diff_near {a' b' : Fl rnd} {a b : ℝ} (ha : |a'.val - a| ≤ ρ) (hb : |b'.val - b| ≤ ρ) (hab : |a - b| ≤ D) :
    |(a' - b').val - (a - b)| ≤ diffError u η ρ D := by
  have h1 := hf.rounds.err (a'.val - b'.val)
  have hu := hf.rounds.rel
  have h2 : |(a'.val - b'.val) - (a - b)| ≤ 2 * ρ := by
    rw [show (a'.val - b'.val) - (a - b) = (a'.val - a) - (b'.val - b) by ring]
    exact (abs_sub _ _).trans (by linarith)
  have h3 : |a'.val - b'.val| ≤ D + 2 * ρ := by
    have := abs_sub_abs_le_abs_sub (a'.val - b'.val) (a - b)
    linarith
  rw [Fl.sub_val]
  calc |rnd (a'.val - b'.val) - (a - b)| ≤ |rnd (a'.val - b'.val) - (a'.val - b'.val)| + |(a'.val - b'.val) - (a - b)| := abs_sub_le _ _ _
    _ ≤ (u * |a'.val - b'.val| + η) + 2 * ρ := add_le_add h1 h2
    _ ≤ (u * (D + 2 * ρ) + η) + 2 * ρ := by have := mul_le_mul_of_nonneg_left h3 hu; linarith
    _ = _ := by unfold diffError; ring

theorem prod_near {a' b' : Fl rnd} {a b : ℝ} (ha : |a'.val - a| ≤ diffError u η ρ D) (hb : |b'.val - b| ≤ diffError u η ρ D)
    (hA : |a| ≤ D) (hB : |b| ≤ D) : |(a' * b').val - a * b| ≤ prodError u η ρ D := by
  have h1 := hf.rounds.err (a'.val * b'.val)
  have hu := hf.rounds.rel
  have hδ := diffError_nonneg hf
  have hD := hf.size
  set δ := diffError u η ρ D with hδd
  have ha' : |a'.val| ≤ D + δ := by have := abs_sub_abs_le_abs_sub a'.val a; linarith
  have hb' : |b'.val| ≤ D + δ := by have := abs_sub_abs_le_abs_sub b'.val b; linarith
  have h2 : |a'.val * b'.val - a * b| ≤ 2 * D * δ + δ ^ 2 := by
    rw [show a'.val * b'.val - a * b = (a'.val - a) * b'.val + a * (b'.val - b) by ring]
    refine (abs_add_le _ _).trans ?_
    rw [abs_mul, abs_mul]
    have e1 : |a'.val - a| * |b'.val| ≤ δ * (D + δ) := mul_le_mul ha hb' (abs_nonneg _) hδ
    have e2 : |a| * |b'.val - b| ≤ D * δ := mul_le_mul hA hb (abs_nonneg _) hD
    nlinarith
  have h3 : |a'.val * b'.val| ≤ (D + δ) ^ 2 := by
    rw [abs_mul, sq]; exact mul_le_mul ha' hb' (abs_nonneg _) (by positivity)
  rw [Fl.mul_val]
  calc |rnd (a'.val * b'.val) - a * b| ≤ |rnd (a'.val * b'.val) - a'.val * b'.val| + |a'.val * b'.val - a * b| := abs_sub_le _ _ _
    _ ≤ (u * |a'.val * b'.val| + η) + (2 * D * δ + δ ^ 2) := add_le_add h1 h2
    _ ≤ (u * (D + δ) ^ 2 + η) + (2 * D * δ + δ ^ 2) := by have := mul_le_mul_of_nonneg_left h3 hu; linarith
    _ = _ := by unfold prodError; rw [← hδd]; ring

theorem prod_size {a b : ℝ} (hA : |a| ≤ D) (hB : |b| ≤ D) : |a * b| ≤ D ^ 2 := by
  rw [abs_mul, sq]; exact mul_le_mul hA hB (abs_nonneg _) hf.size

/-- A sum of two products, the first of them rounded once more. -/
theorem sum_near {x' y' : Fl rnd} {x y : ℝ} (hx : |x'.val - x| ≤ prodError u η ρ D) (hy : |y'.val - y| ≤ prodError u η ρ D)
    (hX : |x| ≤ D ^ 2) (hY : |y| ≤ D ^ 2) : |(0 + x' + y').val - (x + y)| ≤ sumError u η ρ D := by
  have hu := hf.rounds.rel
  have hη := hf.rounds.abs
  have hτ := prodError_nonneg hf
  set τ := prodError u η ρ D with hτd
  have h1 := hf.rounds.err x'.val
  have hx' : |x'.val| ≤ D ^ 2 + τ := by have := abs_sub_abs_le_abs_sub x'.val x; linarith
  have hy' : |y'.val| ≤ D ^ 2 + τ := by have := abs_sub_abs_le_abs_sub y'.val y; linarith
  have e1 : |rnd x'.val - x'.val| ≤ u * (D ^ 2 + τ) + η := by have := mul_le_mul_of_nonneg_left hx' hu; linarith
  have h2 := hf.rounds.err (rnd x'.val + y'.val)
  have e2 : |rnd x'.val + y'.val| ≤ 2 * (D ^ 2 + τ) + (u * (D ^ 2 + τ) + η) := by
    have := abs_sub_abs_le_abs_sub (rnd x'.val) x'.val
    exact (abs_add_le _ _).trans (by linarith)
  have e3 := mul_le_mul_of_nonneg_left e2 hu
  have hv : (0 + x' + y').val = rnd (rnd x'.val + y'.val) := by
    rw [Fl.add_val, Fl.add_val, Fl.zero_val, zero_add]
  rw [hv]
  have e4 : rnd (rnd x'.val + y'.val) - (x + y) =
      (rnd (rnd x'.val + y'.val) - (rnd x'.val + y'.val)) + (rnd x'.val - x'.val) + ((x'.val - x) + (y'.val - y)) := by ring
  rw [e4]
  refine (abs_add_three _ _ _).trans ?_
  have e5 : |(x'.val - x) + (y'.val - y)| ≤ 2 * τ := (abs_add_le _ _).trans (by linarith)
  unfold sumError
  rw [← hτd]
  linarith

theorem subprod_near {x' y' : Fl rnd} {x y : ℝ} (hx : |x'.val - x| ≤ prodError u η ρ D) (hy : |y'.val - y| ≤ prodError u η ρ D)
    (hX : |x| ≤ D ^ 2) (hY : |y| ≤ D ^ 2) : |(x' - y').val - (x - y)| ≤ sumError u η ρ D := by
  have hu := hf.rounds.rel
  have hη := hf.rounds.abs
  have hτ := prodError_nonneg hf
  have hD := hf.size
  set τ := prodError u η ρ D with hτd
  have hx' : |x'.val| ≤ D ^ 2 + τ := by have := abs_sub_abs_le_abs_sub x'.val x; linarith
  have hy' : |y'.val| ≤ D ^ 2 + τ := by have := abs_sub_abs_le_abs_sub y'.val y; linarith
  have h2 := hf.rounds.err (x'.val - y'.val)
  have e2 : |x'.val - y'.val| ≤ 2 * (D ^ 2 + τ) := (abs_sub _ _).trans (by linarith)
  have e3 := mul_le_mul_of_nonneg_left e2 hu
  rw [Fl.sub_val]
  have e4 : rnd (x'.val - y'.val) - (x - y) = (rnd (x'.val - y'.val) - (x'.val - y'.val)) + ((x'.val - x) - (y'.val - y)) := by ring
  rw [e4]
  refine (abs_add_le _ _).trans ?_
  have e5 : |(x'.val - x) - (y'.val - y)| ≤ 2 * τ := (abs_sub _ _).trans (by linarith)
  have e6 : 0 ≤ u * (D ^ 2 + τ) := by positivity
  have e7 : 0 ≤ u * (u * (D ^ 2 + τ) + η) := by positivity
  unfold sumError
  rw [← hτd]
  linarith

/-! ### Geometry -/

section geometry
variable {P : Set P2} (hs : SpreadBy D P)
include hs

theorem cross_near {p' q' r' : Pt (Fl rnd)} {p q r : P2} (hp : NearPt ρ p' p) (hq : NearPt ρ q' q) (hr : NearPt ρ r' r)
    (mp : p ∈ P) (mq : q ∈ P) (mr : r ∈ P) : |(cross p' q' r').val - cross p q r| ≤ sumError u η ρ D := by
  have a := hs q mq p mp
  have b := hs r mr p mp
  unfold cross
  exact subprod_near hf (prod_near hf (diff_near hf hq.1 hp.1 a.1) (diff_near hf hr.2 hp.2 b.2) a.1 b.2)
    (prod_near hf (diff_near hf hq.2 hp.2 a.2) (diff_near hf hr.1 hp.1 b.1) a.2 b.1) (prod_size hf a.1 b.2) (prod_size hf a.2 b.1)

/-- The dot product in `getExtremaPointIndices`. -/
theorem dotp_near {c' a' b' : Pt (Fl rnd)} {c a b : P2} (hc : NearPt ρ c' c) (ha : NearPt ρ a' a) (hb : NearPt ρ b' b)
    (mc : c ∈ P) (ma : a ∈ P) (mb : b ∈ P) :
    |(0 + (a'.1 - c'.1) * (b'.1 - c'.1) + (a'.2 - c'.2) * (b'.2 - c'.2)).val - ((a.1 - c.1) * (b.1 - c.1) + (a.2 - c.2) * (b.2 - c.2))| ≤
      sumError u η ρ D := by
  have x := hs a ma c mc
  have y := hs b mb c mc
  exact sum_near hf (prod_near hf (diff_near hf ha.1 hc.1 x.1) (diff_near hf hb.1 hc.1 y.1) x.1 y.1)
    (prod_near hf (diff_near hf ha.2 hc.2 x.2) (diff_near hf hb.2 hc.2 y.2) x.2 y.2) (prod_size hf x.1 y.1) (prod_size hf x.2 y.2)

end geometry

/-! ### Decisions -/

theorem eps_near : |(eps : Fl rnd).val - 1 / 1000000000000| ≤ u / 1000000000000 + η := by
  have h1 : (eps : Fl rnd).val = rnd (1 / 1000000000000) := by
    show rnd (1 / rnd ((1000000000000 : Nat) : ℝ)) = _
    push_cast
    rw [hf.consts.tera]
  have := hf.rounds.err (1 / 1000000000000)
  rw [h1]
  refine this.trans ?_
  rw [abs_of_pos (by norm_num)]
  linarith

/-- A quantity that is at most 0 or above twice the tolerance is compared with the tolerance as in exact arithmetic. -/
theorem above_iff {x' : Fl rnd} {x : ℝ} (h : |x'.val - x| ≤ sumError u η ρ D) (hx : x ≤ 0 ∨ 2 / 1000000000000 < x) :
    eps < x' ↔ (eps : ℝ) < x := by
  have he := abs_le.1 (eps_near hf)
  have h' := abs_le.1 h
  have hsm := hf.small
  rw [fl_lt, eps_real]
  rcases hx with hx | hx
  · constructor
    · intro h1; linarith
    · intro h1; linarith
  · constructor
    · intro _; linarith
    · intro _; linarith

theorem below_iff {x' : Fl rnd} {x : ℝ} (h : |x'.val - x| ≤ sumError u η ρ D) (hx : x ≤ 0 ∨ 2 / 1000000000000 < x) :
    x' < eps ↔ x < (eps : ℝ) := by
  have he := abs_le.1 (eps_near hf)
  have h' := abs_le.1 h
  have hsm := hf.small
  rw [fl_lt, eps_real]
  rcases hx with hx | hx
  · constructor
    · intro h1; linarith
    · intro h1; linarith
  · constructor
    · intro _; linarith
    · intro _; linarith

theorem negative_iff {x' : Fl rnd} {x : ℝ} (h : |x'.val - x| ≤ sumError u η ρ D) (hx : x = 0 ∨ 2 / 1000000000000 < |x|) :
    x' < -eps ↔ x < -(eps : ℝ) := by
  have he := abs_le.1 (eps_near hf)
  have h' := abs_le.1 h
  have hsm := hf.small
  rw [fl_lt, fl_neg, eps_real]
  rcases hx with hx | hx
  · constructor <;> intro h1 <;> linarith
  · rcases lt_abs.1 hx with hx | hx
    · constructor <;> intro h1 <;> linarith
    · constructor <;> intro h1 <;> linarith

theorem fabs_near {x' : Fl rnd} {x : ℝ} (h : |x'.val - x| ≤ sumError u η ρ D) : |(fabs x').val - fabs x| ≤ sumError u η ρ D := by
  have e : (fabs x').val = |x'.val| := by
    unfold fabs
    by_cases h0 : x' < 0
    · rw [if_pos h0, fl_neg, abs_of_neg h0]
    · rw [if_neg h0, abs_of_nonneg (not_lt.1 h0)]
  rw [e, fabs_eq]
  exact (abs_abs_sub_abs_le _ _).trans h

end errors

theorem _root_.Sg.Spec.TolClean2.tolClean {P : Set P2} (h : TolClean2 P) : TolClean P where
  dist p hp q hq hpq := lt_trans (by norm_num) (h.dist p hp q hq hpq)
  area p hp q hq r hr := (h.area p hp q hq r hr).imp_right fun h => lt_trans (by norm_num) h

/-! ### Memory -/

/-- Two memories with corresponding points. -/
structure MemNear (ρ : ℝ) (P : Set P2) (m' : Mem (Fl rnd)) (m : Mem ℝ) : Prop where
  size : m'.size = m.size
  readable : m'.readable = m.readable
  buf : List.Forall₂ (NearPt ρ) m'.buf m.buf
  mem : ∀ p ∈ m.buf, p ∈ P

section sim
variable {P : Set P2} {m' : Mem (Fl rnd)} {m : Mem ℝ} (hf : FineBy rnd u η ρ D) (hs : SpreadBy D P) (hcl : TolClean2 P)
  (hm : MemNear ρ P m' m)

theorem vget_rel {α β : Type} {R : α → β → Prop} {l : List α} {l' : List β} (h : List.Forall₂ R l l') (i : Nat) :
    Cxx.Rel R (vget l i) (vget l' i) := by
  unfold vget
  induction h generalizing i with
  | nil => exact Or.inr ⟨_, rfl, rfl⟩
  | cons h _ ih =>
    cases i with
    | zero => exact Cxx.Rel.ok h
    | succ i => exact ih i

include hm in
theorem read_rel (i : Nat) : Cxx.Rel (fun p' p => NearPt ρ p' p ∧ p ∈ P ∧ m.read i = .ok p) (m'.read i) (m.read i) := by
  unfold Mem.read
  rw [hm.readable]
  split
  · rcases vget_rel hm.buf i with ⟨a, b, e1, e2, h⟩ | ⟨e, e1, e2⟩
    · refine Or.inl ⟨a, b, e1, e2, h, hm.mem b ?_, e2⟩
      exact List.mem_of_getElem? (vget_eq_ok.1 e2)
    · exact Or.inr ⟨e, e1, e2⟩
  · exact Or.inr ⟨_, rfl, rfl⟩

include hf hs hm in
theorem area_rel (i j k : Nat) :
    Cxx.Rel (fun a' a => |a'.val - a| ≤ sumError u η ρ D ∧ ∃ p ∈ P, ∃ q ∈ P, ∃ r ∈ P, a = cross p q r ∧
      m.read i = .ok p ∧ m.read j = .ok q ∧ m.read k = .ok r) (m'.area i j k) (m.area i j k) := by
  unfold Mem.area
  refine (read_rel hm i).bind fun p' p hp => (read_rel hm j).bind fun q' q hq => (read_rel hm k).bind fun r' r hr => ?_
  exact Cxx.Rel.ok ⟨cross_near hf hs hp.1 hq.1 hr.1 hp.2.1 hq.2.1 hr.2.1, p, hp.2.1, q, hq.2.1, r, hr.2.1, rfl, hp.2.2, hq.2.2, hr.2.2⟩

/-- Dot products of points on a line are negative, zero, or not small. -/
theorem dot_clear (hcl : TolClean2 P) {c a b : P2} (mc : c ∈ P) (ma : a ∈ P) (mb : b ∈ P) (h : cross c a b = 0) :
    (a.1 - c.1) * (b.1 - c.1) + (a.2 - c.2) * (b.2 - c.2) ≤ 0 ∨
      2 / 1000000000000 < (a.1 - c.1) * (b.1 - c.1) + (a.2 - c.2) * (b.2 - c.2) := by
  by_contra hcon
  push Not at hcon
  obtain ⟨h1, h2⟩ := hcon
  have hac : c ≠ a := by rintro rfl; simp at h1
  have hbc : c ≠ b := by rintro rfl; simp at h1
  have d1 := hcl.dist c mc a ma hac
  have d2 := hcl.dist c mc b mb hbc
  have hx : (a.1 - c.1) * (b.2 - c.2) - (a.2 - c.2) * (b.1 - c.1) = 0 := h
  set x1 := a.1 - c.1; set x2 := a.2 - c.2; set y1 := b.1 - c.1; set y2 := b.2 - c.2
  have key : (x1 * y1 + x2 * y2) ^ 2 = (x1 ^ 2 + x2 ^ 2) * (y1 ^ 2 + y2 ^ 2) := by linear_combination (-(x1 * y2 - x2 * y1)) * hx
  have k2 : (2 / 1000000000000 : ℝ) ^ 2 < (x1 ^ 2 + x2 ^ 2) * (y1 ^ 2 + y2 ^ 2) := by
    rw [sq]; exact mul_lt_mul'' d1 d2 (by norm_num) (by norm_num)
  have k3 : (x1 * y1 + x2 * y2) ^ 2 ≤ (2 / 1000000000000 : ℝ) ^ 2 := pow_le_pow_left₀ h1.le h2 2
  linarith

include hf hs hcl hm in
theorem dot_rel {ic ia ib : Nat} {c a b : P2} (hc : m.read ic = .ok c) (ha : m.read ia = .ok a) (hb : m.read ib = .ok b)
    (h : cross c a b = 0) :
    Cxx.Rel (fun d' d => (eps < d' ↔ (eps : ℝ) < d)) (m'.dot ic ia ib) (m.dot ic ia ib) := by
  unfold Mem.dot
  refine (read_rel hm ic).bind fun c' c0 hc' => (read_rel hm ia).bind fun a' a0 ha' => (read_rel hm ib).bind fun b' b0 hb' => ?_
  have e1 : c0 = c := by have := hc'.2.2.symm.trans hc; injection this
  have e2 : a0 = a := by have := ha'.2.2.symm.trans ha; injection this
  have e3 : b0 = b := by have := hb'.2.2.symm.trans hb; injection this
  subst e1 e2 e3
  refine Cxx.Rel.ok ?_
  refine above_iff hf ?_ ?_
  · have := dotp_near hf hs hc'.1 ha'.1 hb'.1 hc'.2.1 ha'.2.1 hb'.2.1
    rw [zero_add]
    exact this
  · rw [zero_add]; exact dot_clear hcl hc'.2.1 ha'.2.1 hb'.2.1 h

include hf hs hcl hm in
theorem extrema_rel {i0 i1 i2 : Nat} {p q r : P2} (hp : m.read i0 = .ok p) (hq : m.read i1 = .ok q) (hr : m.read i2 = .ok r)
    (h : cross p q r = 0) : m'.extrema i0 i1 i2 = m.extrema i0 i1 i2 := by
  have h1 : cross q r p = 0 := by rw [← h]; simp only [cross]; ring
  have h2 : cross r p q = 0 := by rw [← h]; simp only [cross]; ring
  apply Cxx.Rel.eq
  unfold Mem.extrema
  refine (dot_rel hf hs hcl hm hp hq hr h).bind fun a' a ha => ?_
  by_cases c0 : (eps : ℝ) < a
  · rw [if_pos (ha.2 c0), if_pos c0]
    refine (dot_rel hf hs hcl hm hq hr hp h1).bind fun b' b hb => ?_
    by_cases c1 : (eps : ℝ) < b
    · rw [if_pos (hb.2 c1), if_pos c1]
      refine (dot_rel hf hs hcl hm hr hp hq h2).bind fun c' c hc => Cxx.Rel.ok rfl
    · rw [if_neg (fun h => c1 (hb.1 h)), if_neg c1]
      exact Cxx.Rel.ok rfl
  · rw [if_neg (fun h => c0 (ha.1 h)), if_neg c0]
    exact Cxx.Rel.ok rfl

theorem cross_clear (hcl : TolClean2 P) {p q r : P2} (hp : p ∈ P) (hq : q ∈ P) (hr : r ∈ P) :
    cross p q r = 0 ∨ 2 / 1000000000000 < |cross p q r| := hcl.area p hp q hq r hr

theorem fabs_clear {x : ℝ} (h : x = 0 ∨ 2 / 1000000000000 < |x|) : fabs x ≤ 0 ∨ 2 / 1000000000000 < fabs x := by
  rw [fabs_eq]
  rcases h with rfl | h
  · left; simp
  · right; exact h

include hf hs hcl hm in
theorem firstLoop_rel (k : Nat) : ∀ (i0 i1 i2 : Nat) (x' : Fl rnd) (p q r : P2), |x'.val - cross p q r| ≤ sumError u η ρ D →
    p ∈ P → q ∈ P → r ∈ P → m.read i0 = .ok p → m.read i1 = .ok q → m.read i2 = .ok r →
    Cxx.Rel (fun a b => a.1 = b.1 ∧ a.2.1 = b.2.1 ∧ a.2.2.1 = b.2.2.1 ∧ (a.2.2.2 < eps ↔ b.2.2.2 < (eps : ℝ)))
      (m'.firstLoop k i0 i1 i2 (fabs x')) (m.firstLoop k i0 i1 i2 (fabs (cross p q r))) := by
  induction k with
  | zero =>
    intro i0 i1 i2 x' p q r hx mp mq mr _ _ _
    exact Cxx.Rel.ok ⟨rfl, rfl, rfl, below_iff hf (fabs_near hf hx) (fabs_clear (cross_clear hcl mp mq mr))⟩
  | succ k ih =>
    intro i0 i1 i2 x' p q r hx mp mq mr rp rq rr
    have hc := cross_clear hcl mp mq mr
    have hb := below_iff hf (fabs_near hf hx) (fabs_clear hc)
    unfold Mem.firstLoop
    by_cases hlt : fabs (cross p q r) < eps
    · rw [if_pos (hb.2 hlt), if_pos hlt]
      have h0 : cross p q r = 0 := by
        rcases hc with h | h
        · exact h
        · rw [fabs_eq, eps_real] at hlt; linarith
      rw [extrema_rel hf hs hcl hm rp rq rr h0]
      refine (Cxx.Rel.of_eq rfl).bind fun e e' he => ?_
      subst he
      refine (area_rel hf hs hm e.1 e.2 (i2 + 1)).bind fun a' a ha => ?_
      obtain ⟨h1, p1, mp1, q1, mq1, r1, mr1, rfl, ep, eq, er⟩ := ha
      exact ih e.1 e.2 (i2 + 1) a' p1 q1 r1 h1 mp1 mq1 mr1 ep eq er
    · rw [if_neg (fun h => hlt (hb.1 h)), if_neg hlt]
      exact Cxx.Rel.ok ⟨rfl, rfl, rfl, hb⟩

include hf hs hcl hm in
theorem visible_rel (i j k : Nat) : m'.isEdgeVisible i j k = m.isEdgeVisible i j k := by
  apply Cxx.Rel.eq
  unfold Mem.isEdgeVisible
  refine (area_rel hf hs hm i j k).bind fun a' a ha => ?_
  obtain ⟨h1, p, mp, q, mq, r, mr, rfl, -⟩ := ha
  refine Cxx.Rel.ok ?_
  rw [decide_eq_decide]
  exact negative_iff hf h1 (cross_clear hcl mp mq mr)

include hf hs hcl hm in
theorem ccw_rel (i j k : Nat) : m'.makeCounterClockwise i j k = m.makeCounterClockwise i j k := by
  apply Cxx.Rel.eq
  unfold Mem.makeCounterClockwise
  refine (area_rel hf hs hm i j k).bind fun a' a ha => ?_
  obtain ⟨h1, p, mp, q, mq, r, mr, rfl, -⟩ := ha
  refine Cxx.Rel.ok ?_
  have hn := negative_iff hf h1 (cross_clear hcl mp mq mr)
  by_cases hlt : cross p q r < -(eps : ℝ)
  · rw [if_pos (hn.2 hlt), if_pos hlt]
  · rw [if_neg (fun h => hlt (hn.1 h)), if_neg hlt]

include hf hs hcl hm in
theorem makeFirstTriangle_rel : m'.makeFirstTriangle = m.makeFirstTriangle := by
  apply Cxx.Rel.eq
  unfold Mem.makeFirstTriangle
  rw [hm.size]
  split
  · exact Cxx.Rel.ok rfl
  · refine (area_rel hf hs hm 0 1 2).bind fun a' a ha => ?_
    obtain ⟨h1, p, mp, q, mq, r, mr, rfl, rp, rq, rr⟩ := ha
    refine (firstLoop_rel hf hs hcl hm (m.size - 2) 0 1 2 a' p q r h1 mp mq mr rp rq rr).bind ?_
    rintro ⟨i0, i1, i2, x'⟩ ⟨j0, j1, j2, x⟩ ⟨e0, e1, e2, hx⟩
    dsimp only at e0 e1 e2 hx
    subst e0 e1 e2
    dsimp only
    by_cases hlt : x < eps
    · rw [if_pos (hx.2 hlt), if_pos hlt]
      exact Cxx.Rel.ok rfl
    · rw [if_neg (fun h => hlt (hx.1 h)), if_neg hlt]
      rw [ccw_rel hf hs hcl hm]
      refine (Cxx.Rel.of_eq rfl).bind fun e e' he => ?_
      subst he
      exact Cxx.Rel.ok rfl

include hf hs hcl hm in
theorem addPoint_rel (ip : Nat) (t : Mesh) : m'.addPoint ip t = m.addPoint ip t := by
  have hscan : ∀ es w, m'.scan ip es w = m.scan ip es w := by
    intro es
    induction es with
    | nil => intro w; rfl
    | cons e es ih =>
      intro w
      simp only [Mem.scan, visible_rel hf hs hcl hm, ih]
  unfold Mem.addPoint
  rw [hscan]

end sim

/-! ### Removing repeated points -/

section keep
variable {P : Set P2} (hf : FineBy rnd u η ρ D) (hs : SpreadBy D P) (hcl : TolClean2 P)
include hf hs hcl

theorem distance_iff {p' q' : Pt (Fl rnd)} {p q : P2} (hp : NearPt ρ p' p) (hq : NearPt ρ q' q) (mp : p ∈ P) (mq : q ∈ P) :
    eps < distanceSquare p' q' ↔ (eps : ℝ) < distanceSquare p q := by
  have h := dotp_near hf hs hp hq hq mp mq mq
  refine above_iff hf (x := distanceSquare p q) ?_ ?_
  · unfold distanceSquare; rw [zero_add]; exact h
  · rw [distanceSquare_eq]
    by_cases e : p = q
    · left; subst e; simp
    · right; exact hcl.dist p mp q mq e

theorem keepDistinct_rel {l' : List (Pt (Fl rnd))} {l : List P2} (h : List.Forall₂ (NearPt ρ) l' l) : ∀ {p' : Pt (Fl rnd)} {p : P2},
    NearPt ρ p' p → p ∈ P → (∀ x ∈ l, x ∈ P) → List.Forall₂ (NearPt ρ) (keepDistinct p' l') (keepDistinct p l) := by
  induction h with
  | nil => intro _ _ _ _ _; exact List.Forall₂.nil
  | cons h0 _ ih =>
    intro p' p hp mp hl
    have mq := hl _ (List.mem_cons_self ..)
    have hd := distance_iff hf hs hcl hp h0 mp mq
    unfold keepDistinct
    split
    · rename_i hlt
      rw [if_pos (hd.1 hlt)]
      exact List.Forall₂.cons h0 (ih h0 mq fun x hx => hl x (List.mem_cons_of_mem _ hx))
    · rename_i hlt
      rw [if_neg (fun h => hlt (hd.2 h))]
      exact ih hp mp fun x hx => hl x (List.mem_cons_of_mem _ hx)

theorem removeDegenerate_rel {l' : List (Pt (Fl rnd))} {l : List P2} (h : List.Forall₂ (NearPt ρ) l' l) (hl : ∀ x ∈ l, x ∈ P) :
    List.Forall₂ (NearPt ρ) (removeDegenerateSegments l') (removeDegenerateSegments l) := by
  cases h with
  | nil => exact List.Forall₂.nil
  | cons h0 ht =>
    exact List.Forall₂.cons h0 (keepDistinct_rel hf hs hcl ht h0 (hl _ (List.mem_cons_self ..)) fun x hx => hl x (List.mem_cons_of_mem _ hx))

theorem memOf_near (mode : Mode) {l' : List (Pt (Fl rnd))} {l : List P2} (h : List.Forall₂ (NearPt ρ) l' l) (hl : ∀ x ∈ l, x ∈ P) :
    MemNear ρ P (memOf mode l') (memOf mode l) := by
  have hr := removeDegenerate_rel hf hs hcl h hl
  have hlen := hr.length_eq
  refine ⟨hlen, ?_, ?_, ?_⟩
  · cases mode
    · exact hlen
    · exact h.length_eq
  · show List.Forall₂ _ (removeDegenerateSegments l' ++ l'.drop _) (removeDegenerateSegments l ++ l.drop _)
    rw [hlen]
    exact List.rel_append hr (List.forall₂_drop _ h)
  · intro p hp
    rcases List.mem_append.1 hp with hp | hp
    · refine hl p ?_
      cases l with
      | nil => exact hp
      | cons a l =>
        rcases List.mem_cons.1 hp with rfl | hp
        · exact List.mem_cons_self ..
        · exact List.mem_cons_of_mem _ (keepDistinct_sub _ _ _ hp)
    · exact hl p (List.mem_of_mem_drop hp)

/-- The mesh is that of exact arithmetic. -/
theorem build_rel (mode : Mode) {l' : List (Pt (Fl rnd))} {l : List P2} (h : List.Forall₂ (NearPt ρ) l' l) (hl : ∀ x ∈ l, x ∈ P) :
    Cxx.Rel (fun o' o => MemNear ρ P o'.1 o.1 ∧ o'.2 = o.2) (build mode l') (build mode l) := by
  have hm := memOf_near hf hs hcl mode h hl
  unfold build
  dsimp only
  rw [makeFirstTriangle_rel hf hs hcl hm]
  refine (Cxx.Rel.of_eq rfl).bind ?_
  rintro ⟨k, t⟩ _ rfl
  dsimp only
  have e : (fun ip t => (memOf mode l').addPoint ip t) = fun ip t => (memOf mode l).addPoint ip t := by
    funext ip t; exact addPoint_rel hf hs hcl hm ip t
  rw [e, h.length_eq]
  refine (Cxx.Rel.of_eq rfl).bind ?_
  rintro t _ rfl
  exact Cxx.Rel.ok ⟨hm, rfl⟩

end keep

/-! ### The area -/

section area
variable {P : Set P2} {m' : Mem (Fl rnd)} {m : Mem ℝ} (hf : FineBy rnd u η ρ D) (hs : SpreadBy D P) (hm : MemNear ρ P m' m)
include hf hs hm

/-- The sum of the areas of triangles that are positive. -/
theorem triSum_near (hb : m.readable ≤ m.buf.length) (T : ℝ) (l : List (Nat × Nat × Nat)) :
    ∀ (s' : Fl rnd) (s : ℝ) (k : Nat), (∀ a ∈ l, a.1 < m.readable ∧ a.2.1 < m.readable ∧ a.2.2 < m.readable) →
      (∀ a ∈ l, 0 < cross (m.pt a.1) (m.pt a.2.1) (m.pt a.2.2)) → 0 ≤ s → s + m.triSum l ≤ T →
      |s'.val - s| ≤ k * (1 + u) ^ k * (sumError u η ρ D + u * T + η) →
      ∃ r : Fl rnd, (l.foldlM (fun s t => do
          let a ← m'.area t.1 t.2.1 t.2.2
          return s + a) s' : Cxx (Fl rnd)) = .ok r ∧
        |r.val - (s + m.triSum l)| ≤ ((k + l.length : Nat) : ℝ) * (1 + u) ^ (k + l.length) * (sumError u η ρ D + u * T + η) := by
  induction l with
  | nil =>
    intro s' s k _ _ _ _ h
    refine ⟨s', rfl, ?_⟩
    simpa [Mem.triSum] using h
  | cons t l ih =>
    intro s' s k hidx hpos h0 hT h
    have ht := hidx t (List.mem_cons_self ..)
    have hp := hpos t (List.mem_cons_self ..)
    have hsum : m.triSum (t :: l) = cross (m.pt t.1) (m.pt t.2.1) (m.pt t.2.2) + m.triSum l := by
      simp only [Mem.triSum, List.map_cons, List.sum_cons]
    have hrest : 0 ≤ m.triSum l := by
      unfold Mem.triSum
      refine List.sum_nonneg ?_
      intro x hx
      obtain ⟨a, ha, rfl⟩ := List.mem_map.1 hx
      exact (hpos a (List.mem_cons_of_mem _ ha)).le
    set c := cross (m.pt t.1) (m.pt t.2.1) (m.pt t.2.2) with hc
    rcases area_rel hf hs hm t.1 t.2.1 t.2.2 with ⟨a', a, e1, e2, ha, -⟩ | ⟨e, _, e2⟩
    · rw [Mem.area_ok hb ht.1 ht.2.1 ht.2.2, ← hc] at e2
      have e3 : a = c := by injection e2 with e2; exact e2.symm
      subst e3
      have hu := hf.rounds.rel
      have hη := hf.rounds.abs
      have hκ := sumError_nonneg hf
      have hT0 : 0 ≤ T := by rw [hsum] at hT; linarith
      set X := sumError u η ρ D + u * T + η with hX
      have hX0 : 0 ≤ X := by positivity
      have herr := hf.rounds.err (s'.val + a'.val)
      have h1 : |s'.val + a'.val - (s + c)| ≤ k * (1 + u) ^ k * X + sumError u η ρ D := by
        rw [show s'.val + a'.val - (s + c) = (s'.val - s) + (a'.val - c) by ring]
        exact (abs_add_le _ _).trans (add_le_add h ha)
      have h2 : |s'.val + a'.val| ≤ T + (k * (1 + u) ^ k * X + sumError u η ρ D) := by
        have := abs_sub_abs_le_abs_sub (s'.val + a'.val) (s + c)
        rw [abs_of_nonneg (show 0 ≤ s + c by linarith)] at this
        rw [hsum] at hT
        linarith
      have h3 : |(s' + a').val - (s + c)| ≤ ((k + 1 : Nat) : ℝ) * (1 + u) ^ (k + 1) * X := by
        rw [Fl.add_val]
        have e : rnd (s'.val + a'.val) - (s + c) = (rnd (s'.val + a'.val) - (s'.val + a'.val)) + (s'.val + a'.val - (s + c)) := by ring
        rw [e]
        refine (abs_add_le _ _).trans ?_
        have h4 := mul_le_mul_of_nonneg_left h2 hu
        have h5 : (1 : ℝ) ≤ (1 + u) ^ k := one_le_pow₀ (by linarith)
        have h6 : (1 + u) * X ≤ (1 + u) * (1 + u) ^ k * X := by nlinarith [mul_nonneg (show 0 ≤ (1 + u) by linarith) hX0]
        have h7 : (1 + u) * (sumError u η ρ D) + (u * T + η) ≤ (1 + u) * X := by
          rw [hX]; nlinarith [mul_nonneg hu (mul_nonneg hu hT0), mul_nonneg hu hη]
        push_cast
        rw [pow_succ]
        nlinarith
      obtain ⟨r, er, hr⟩ := ih (s' + a') (s + c) (k + 1) (fun a ha => hidx a (List.mem_cons_of_mem _ ha))
        (fun a ha => hpos a (List.mem_cons_of_mem _ ha)) (by linarith) (by rw [hsum] at hT; linarith) h3
      refine ⟨r, ?_, ?_⟩
      · rw [List.foldlM_cons]
        simp only [e1, bind, Except.bind, pure, Except.pure] at er ⊢
        exact er
      · rw [hsum, List.length_cons, show k + (l.length + 1) = k + 1 + l.length by omega]
        rw [← add_assoc]
        exact hr
    · rw [Mem.area_ok hb ht.1 ht.2.1 ht.2.2] at e2
      cases e2

end area

/-- The computed area, for a given result of the sort. -/
theorem hullArea_near {P : Set P2} (hf : FineBy rnd u η ρ D) (hs : SpreadBy D P) (hcl : TolClean2 P) (mode : Mode)
    {l' : List (Pt (Fl rnd))} {l : List P2} (h : List.Forall₂ (NearPt ρ) l' l) (hP : ptsOf l = P)
    (hr : (memOf mode l).readable = l.length) (hcp : ConvexPosition P) :
    (∃ a', hullArea mode l' = .ok a' ∧
      |a'.val - (volume (convexHull ℝ P)).toReal| ≤ areaError u η ρ D l.length (volume (convexHull ℝ P)).toReal) ∨
    (hullArea mode l' = .error .outOfBounds ∧ Collinear2 P ∧ (memOf mode l).size = l.length ∧ 3 ≤ l.length) := by
  subst hP
  have hb : (memOf mode l).readable ≤ (memOf mode l).buf.length := by rw [hr, memOf_length]
  have hrel := build_rel hf hs hcl mode h fun x hx => hx
  have hu := hf.rounds.rel
  have hη := hf.rounds.abs
  have hκ := sumError_nonneg hf
  rcases build_run mode l hr hcl.tolClean hcp with ⟨e, h0⟩ | ⟨t, e, inv, hP⟩ | ⟨e, hc⟩
  · left
    rcases hrel with ⟨o', o, e1, e2, hm, ht⟩ | ⟨_, _, e2⟩
    · rw [e] at e2
      have : o = (memOf mode l, { edges := [], tris := [] }) := by injection e2 with e2; exact e2.symm
      subst this
      refine ⟨⟨rnd ((0 : Fl rnd).val * (1 / (1 + 1) : Fl rnd).val)⟩, ?_, ?_⟩
      · simp only [hullArea, e1, bind, Except.bind, getConvexHullArea, ht, List.foldlM, pure, Except.pure]
        rfl
      · rw [h0, Fl.zero_val, zero_mul]
        have := hf.rounds.err 0
        simp only [sub_zero, abs_zero, mul_zero, zero_add] at this
        show |rnd 0 - (0 : ENNReal).toReal| ≤ _
        rw [ENNReal.toReal_zero, sub_zero]
        refine this.trans ?_
        unfold areaError
        have : 0 ≤ (1 + u) / 2 * (l.length * (1 + u) ^ l.length * (sumError u η ρ D + 2 * u * 0 + η)) := by positivity
        linarith
    · rw [e] at e2; cases e2
  · left
    set m := memOf mode l with hmd
    set A := (volume (convexHull ℝ (ptsOf l))).toReal with hA
    have hT : m.triSum t.tris = 2 * A := by
      rw [hA, ← hP, inv.area, ENNReal.toReal_ofReal (by have := inv.nonneg; linarith)]
      ring
    have hA0 : 0 ≤ A := ENNReal.toReal_nonneg
    rcases hrel with ⟨o', o, e1, e2, hm, ht⟩ | ⟨_, _, e2⟩
    · rw [e] at e2
      have : o = (m, t) := by injection e2 with e2; exact e2.symm
      subst this
      dsimp only at hm ht
      obtain ⟨r, er, hr'⟩ := triSum_near hf hs hm hb (2 * A) t.tris 0 0 0 (by rw [hr]; exact inv.tidx) inv.pos le_rfl
        (by rw [hT, zero_add]) (by simp [Fl.zero_val])
      simp only [bind, Except.bind, pure, Except.pure] at er
      refine ⟨r * (1 / (1 + 1)), ?_, ?_⟩
      · simp only [hullArea, e1, bind, Except.bind, getConvexHullArea, ht, pure, Except.pure, er]
      · have hhalf : (1 / (1 + 1) : Fl rnd).val = 1 / 2 := by
          show rnd (1 / rnd (1 + 1)) = 1 / 2
          rw [show (1 : ℝ) + 1 = 2 by norm_num, hf.consts.two, hf.consts.half]
        rw [Fl.mul_val, hhalf]
        rw [zero_add, hT, zero_add] at hr'
        set X := sumError u η ρ D + u * (2 * A) + η with hX
        have hX0 : 0 ≤ X := by positivity
        have hcount : ((t.tris.length : Nat) : ℝ) * (1 + u) ^ t.tris.length * X ≤ l.length * (1 + u) ^ l.length * X := by
          have hc : t.tris.length ≤ l.length := by have := inv.count; omega
          have c1 : ((t.tris.length : Nat) : ℝ) ≤ l.length := by exact_mod_cast hc
          have c2 : (1 + u) ^ t.tris.length ≤ (1 + u) ^ l.length := pow_le_pow_right₀ (by linarith) hc
          exact mul_le_mul_of_nonneg_right (mul_le_mul c1 c2 (by positivity) (by positivity)) hX0
        set E := (l.length : ℝ) * (1 + u) ^ l.length * X with hE
        have hr2 : |r.val - 2 * A| ≤ E := hr'.trans hcount
        have h1 : |r.val * (1 / 2) - A| ≤ E / 2 := by
          rw [show r.val * (1 / 2) - A = (r.val - 2 * A) / 2 by ring, abs_div, abs_of_pos (show (0 : ℝ) < 2 by norm_num)]
          linarith
        have h2 : |r.val * (1 / 2)| ≤ A + E / 2 := by
          have := abs_sub_abs_le_abs_sub (r.val * (1 / 2)) A
          rw [abs_of_nonneg hA0] at this
          linarith
        have h3 := hf.rounds.err (r.val * (1 / 2))
        have h4 := mul_le_mul_of_nonneg_left h2 hu
        rw [show rnd (r.val * (1 / 2)) - A = (rnd (r.val * (1 / 2)) - r.val * (1 / 2)) + (r.val * (1 / 2) - A) by ring]
        refine (abs_add_le _ _).trans ?_
        have e5 : areaError u η ρ D l.length A = (1 + u) / 2 * E + u * A + η := by
          unfold areaError; rw [hE, hX]; ring
        rw [e5]
        linarith
    · rw [e] at e2; cases e2
  · right
    rcases hrel with ⟨o', o, _, e2, _⟩ | ⟨e', e1, e2⟩
    · rw [e] at e2; cases e2
    · rw [e] at e2
      have : e' = .outOfBounds := by injection e2 with e2; exact e2.symm
      subst this
      exact ⟨by simp only [hullArea, e1, bind, Except.bind], hc⟩

end Triangulate
end Sg
