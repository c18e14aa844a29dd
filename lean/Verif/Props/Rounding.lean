import Verif.Proof.Rounded
import Verif.Props.ConserveInterp
import Verif.Props.NodeInterp
import Verif.Proof.FlowApply
/-
Property C92: `apply` in rounded arithmetic.  The models are used at `Fl rnd`, the real numbers with every operation rounded.
-/
namespace Sg.Props
open Sg Sg.FindPoint Sg.Spec

variable {rnd : ℝ → ℝ}

/-- A sum of products, from the left. -/
noncomputable def dot (l : List (Fl rnd × Fl rnd)) : Fl rnd := l.foldl (fun acc p => acc + p.1 * p.2) 0

theorem dotError_step {u η : ℝ} (hu : 0 ≤ u) (hη : 0 ≤ η) (n : Nat) {A b E : ℝ} (hA : 0 ≤ A) (hb : 0 ≤ b) (hE : E ≤ dotError u η n A) :
    (1 + u) * E + u * A + (u * (1 + u) + u) * b + (2 + u) * η ≤ dotError u η (n + 1) (A + b) := by
  unfold dotError at hE ⊢
  have h1 : (1 : ℝ) ≤ (1 + u) ^ n := one_le_pow₀ (by linarith)
  have hE' := mul_le_mul_of_nonneg_left hE (show 0 ≤ 1 + u by linarith)
  have e1 : (1 + u) ^ (n + 1 + 1) = (1 + u) * ((1 + u) * (1 + u) ^ n) := by ring
  have e2 : (1 + u) ^ (n + 1) = (1 + u) * (1 + u) ^ n := by ring
  rw [e2] at hE'
  rw [e1, e2]
  push_cast
  generalize (1 + u) ^ n = P at *
  have k1 : (u * (1 + u) + u) * b ≤ ((1 + u) * ((1 + u) * P) - 1) * b := by
    refine mul_le_mul_of_nonneg_right ?_ hb
    nlinarith [mul_nonneg hu hu, mul_le_mul_of_nonneg_left h1 (show 0 ≤ (1 + u) * (1 + u) by nlinarith)]
  have k2 : (2 + u) * η ≤ (2 + u) * ((1 + u) * P) * η := by
    have : (2 + u) * 1 ≤ (2 + u) * ((1 + u) * P) := mul_le_mul_of_nonneg_left (by nlinarith) (by linarith)
    nlinarith [mul_le_mul_of_nonneg_right this hη]
  nlinarith [k1, k2, hE']

theorem dot_error {u η : ℝ} (hr : Rounds rnd u η) (l : List (Fl rnd × Fl rnd)) :
    |(dot l).val - (l.map fun p => p.1.val * p.2.val).sum| ≤ dotError u η l.length (l.map fun p => |p.1.val * p.2.val|).sum := by
  induction l using List.reverseRecOn with
  | nil => simp [dot, Fl.zero_val, dotError]
  | append_singleton l p ih =>
    have e : dot (l ++ [p]) = dot l + p.1 * p.2 := by simp [dot]
    rw [e]
    simp only [List.map_append, List.map_cons, List.map_nil, List.sum_append, List.sum_cons, List.sum_nil, add_zero, List.length_append,
      List.length_cons, List.length_nil, zero_add]
    have hS : |(l.map fun p => p.1.val * p.2.val).sum| ≤ (l.map fun p => |p.1.val * p.2.val|).sum := by
      clear ih e
      induction l with
      | nil => simp
      | cons a l ih =>
        simp only [List.map_cons, List.sum_cons]
        exact (abs_add_le _ _).trans (by linarith)
    have hA : 0 ≤ (l.map fun p => |p.1.val * p.2.val|).sum := (abs_nonneg _).trans hS
    refine le_trans ?_ (dotError_step hr.rel hr.abs l.length hA (abs_nonneg (p.1.val * p.2.val)) ih)
    rw [Fl.add_val, Fl.mul_val]
    generalize (dot l).val = r at *
    generalize (l.map fun p => p.1.val * p.2.val).sum = S at *
    generalize (l.map fun p => |p.1.val * p.2.val|).sum = A at *
    generalize p.1.val * p.2.val = x at *
    have h1 := hr.err x
    have h2 := hr.err (r + rnd x)
    have hx : |rnd x| ≤ |x| + (u * |x| + η) := by
      have := abs_add_le (rnd x - x) x
      rw [sub_add_cancel] at this
      linarith
    have hrr : |r| ≤ |r - S| + A := by
      have := abs_add_le (r - S) S
      rw [sub_add_cancel] at this
      linarith
    have h3 : |r + rnd x| ≤ |r - S| + A + (|x| + (u * |x| + η)) := (abs_add_le _ _).trans (by linarith)
    have h4 := mul_le_mul_of_nonneg_left h3 hr.rel
    have e : rnd (r + rnd x) - (S + x) = (rnd (r + rnd x) - (r + rnd x)) + ((r - S) + (rnd x - x)) := by ring
    rw [e]
    refine (abs_add_le _ _).trans ?_
    have h5 := abs_add_le (r - S) (rnd x - x)
    nlinarith [h2, h4, h5, h1]

theorem lookup_sorted {α : Type} {t : List (Nat × α)} (hs : t.Pairwise fun a b => a.1 < b.1) {i : Nat} {l : α} (hm : (i, l) ∈ t) :
    t.lookup i = some l := by
  obtain ⟨l1, l2, hw⟩ := List.append_of_mem hm
  rw [List.lookup_eq_some_iff]
  refine ⟨l1, l2, hw, fun p hp => ?_⟩
  rw [hw, List.pairwise_append] at hs
  have := hs.2.2 p hp (i, l) (List.mem_cons_self ..)
  exact bne_iff_ne.mpr (by dsimp only at this; omega)

/-- **C92** Conservative interpolator (tables built by the class are sorted by destination cell, C59): in any arithmetic whose roundings have relative error at most `u` (and an absolute one at most
`η`), each destination cell with weights gets the sum of weight times value up to the error bound `dotError` of its number of
weights. -/
theorem C92_conserve {u η : ℝ} (hr : Rounds rnd u η) (o : Conserve.Interp (Fl rnd)) (srcData dstData : List (Fl rnd))
    (hs : o.weights.Pairwise fun a b => a.1 < b.1)
    (h : ∀ e ∈ o.weights, e.1 < dstData.length ∧ ∀ p ∈ e.2, p.1 < srcData.length) :
    ∃ d', o.apply srcData dstData = .ok d' ∧ ∀ i l, (i, l) ∈ o.weights → ∃ v, d'[i]? = some v ∧
      |v.val - (l.map fun p => p.2.val * (srcData.getD p.1 0).val).sum| ≤
        dotError u η l.length (l.map fun p => |p.2.val * (srcData.getD p.1 0).val|).sum := by
  obtain ⟨d', e, -, hi⟩ := Conserve.apply_ok o srcData dstData hs h
  refine ⟨d', e, fun i l hm => ⟨weightedSum (fun k => srcData.getD k 0) l, ?_, ?_⟩⟩
  · rw [hi, lookup_sorted hs hm]
  · have := dot_error hr (l.map fun p => (p.2, srcData.getD p.1 0))
    rw [List.length_map, List.map_map, List.map_map] at this
    have e : weightedSum (fun k => srcData.getD k 0) l = dot (l.map fun p => (p.2, srcData.getD p.1 0)) := by
      unfold weightedSum dot
      rw [List.foldl_map]
    rw [e]
    exact this

/-- **C92** Nodal interpolator. -/
theorem C92_node {u η : ℝ} (hr : Rounds rnd u η) (o : NodeInterp.NodeInterp (Fl rnd)) (srcData dstData : List (Fl rnd))
    (hs : o.weights.Pairwise fun a b => a.1 < b.1) (hk : ∀ e ∈ o.weights, e.1 < dstData.length)
    (hv : ∀ e ∈ o.weights, ∀ q ∈ e.2, 0 ≤ q.1 ∧ q.1 < srcData.length) :
    ∃ d', o.apply srcData dstData = .ok d' ∧ ∀ i l, (i, l) ∈ o.weights → ∃ v, d'[i]? = some v ∧
      |v.val - (l.map fun p => p.2.val * (srcData.getD p.1.toNat 0).val).sum| ≤
        dotError u η l.length (l.map fun p => |p.2.val * (srcData.getD p.1.toNat 0).val|).sum := by
  obtain ⟨d', e, -, hi, -⟩ := NodeInterp.apply_ok o srcData dstData hs hk hv
  refine ⟨d', e, fun i l hm => ⟨_, hi (i, l) hm, ?_⟩⟩
  have := dot_error hr (l.map fun p => (p.2, srcData.getD p.1.toNat 0))
  rw [List.length_map, List.map_map, List.map_map] at this
  have e : NodeInterp.entryVal srcData l = dot (l.map fun p => (p.2, srcData.getD p.1.toNat 0)) := by
    unfold NodeInterp.entryVal dot
    rw [List.foldl_map]
  show |(NodeInterp.entryVal srcData l).val - _| ≤ _
  rw [e]
  exact this

/-- The products the flow interpolator adds for a cell: cell `k` of a grid of `n0` times `n1` nodes, weights `w` of its four edges. -/
def cellProducts {F : Type} [Zero F] (n0 n1 : Nat) (x y : List F) (c : Nat × (Fin 4 → F)) : List (F × F) :=
  let i := c.1 / (n1 - 1) % (n0 - 1)
  let j := c.1 % (n1 - 1)
  [(c.2 0, x.getD (i * n1 + j) 0), (c.2 1, x.getD (i * n1 + (j + 1)) 0), (c.2 2, y.getD (i * (n1 - 1) + j) 0),
    (c.2 3, y.getD ((i + 1) * (n1 - 1) + j) 0)]

/-- **C92** Flow interpolator, after `setSrcGrid` with the numbers of nodes `n0` and `n1`: each segment with weights gets the sum of
weight times value up to the error bound of four products per cell. -/
theorem C92_flow {u η : ℝ} (hr : Rounds rnd u η) (o0 o : FlowInterp.Flow (Fl rnd)) (n0 n1 : Nat) (h0 : 2 ≤ n0) (h1 : 2 ≤ n1)
    (hf : n0 * n1 ≤ 1073741824) (xs ys : List (Fl rnd)) (hx : n0 * n1 ≤ xs.length) (hy : n0 * n1 ≤ ys.length)
    (hset : o0.setSrcGrid (n0, n1) xs ys = .ok { o0 with src := o.src })
    (x y d : List (Fl rnd)) (hxl : (n0 - 1) * n1 ≤ x.length) (hyl : n0 * (n1 - 1) ≤ y.length)
    (hs : o.weights.Pairwise fun a b => a.1 < b.1) (hne : ∀ e ∈ o.weights, e.2 ≠ [])
    (hk : ∀ e ∈ o.weights, e.1 < d.length ∧ ∀ c ∈ e.2, c.1 < (n0 - 1) * (n1 - 1)) :
    ∃ d', o.apply x y d = .ok d' ∧ ∀ k l, (k, l) ∈ o.weights → ∃ v, d'[k]? = some v ∧
      |v.val - ((l.flatMap (cellProducts n0 n1 x y)).map fun p => p.1.val * p.2.val).sum| ≤
        dotError u η (4 * l.length) ((l.flatMap (cellProducts n0 n1 x y)).map fun p => |p.1.val * p.2.val|).sum := by
  obtain ⟨s, e, hok⟩ := FlowInterp.setSrcGrid_ok o0 (by omega) (by omega) hf hx hy
  have hsrc : o.src = some s := by
    rw [e] at hset
    have := Except.ok.inj hset
    exact (congrArg FlowInterp.Flow.src this).symm
  have hfit : (n0 - 1) * (n1 - 1) ≤ n0 * n1 := Nat.mul_le_mul (by omega) (by omega)
  obtain ⟨d', ea, -, hd'⟩ := FlowInterp.apply_ok hok h0 h1 ⟨hxl, hyl⟩ o hsrc ⟨hs, hne⟩ d
    (fun a ha => ⟨(hk a ha).1, fun c hc => by have := (hk a ha).2 c hc; omega⟩)
  refine ⟨d', ea, fun k l hm => ?_⟩
  have hl := FlowInterp.entries_mem hs hm
  dsimp only at hl
  refine ⟨_, by rw [hd', hl, if_neg (hne _ hm)], ?_⟩
  have := dot_error hr (l.flatMap (cellProducts n0 n1 x y))
  have e1 : (l.flatMap (cellProducts n0 n1 x y)).length = 4 * l.length := by
    rw [List.length_flatMap]
    clear hm hl this
    induction l with
    | nil => rfl
    | cons c l ih => simp only [List.map_cons, List.sum_cons, ih, List.length_cons]; simp [cellProducts]; ring
  have e2 : FlowInterp.flowSum n0 n1 x y l = dot (l.flatMap (cellProducts n0 n1 x y)) := by
    unfold FlowInterp.flowSum dot
    rw [List.foldl_flatMap]
    rfl
  rw [e1] at this
  rw [e2]
  exact this

/-! ### A case: binary digits -/

/-- A table with one entry. -/
noncomputable def average : Conserve.Interp (Fl (nearest 53)) :=
  { src := none, dst := none, weights := [(0, [(0, ⟨1 / 2⟩), (1, ⟨1 / 2⟩)])], it := none, it2 := none }

/-- The average of two cells, with 53 binary digits. -/
example (a b : Fl (nearest 53)) : ∃ d', average.apply [a, b] [0] = .ok d' ∧ ∃ v, d'[0]? = some v ∧
        |v.val - (1 / 2 * a.val + 1 / 2 * b.val)| ≤ ((1 + 2 ^ (-53 : ℤ)) ^ 3 - 1) * (|1 / 2 * a.val| + |1 / 2 * b.val|) := by
  obtain ⟨d', e, h⟩ := C92_conserve (nearest_rounds 53) average [a, b] [0] (by simp [average])
    (by simp [average]; rintro a b (⟨rfl, -⟩ | ⟨rfl, -⟩) <;> norm_num)
  refine ⟨d', e, ?_⟩
  obtain ⟨v, hv, hb⟩ := h 0 _ (List.mem_singleton.mpr rfl)
  refine ⟨v, hv, ?_⟩
  simpa [dotError] using hb

end Sg.Props
