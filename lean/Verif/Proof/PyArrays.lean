import Verif.Spec.Numpy
import Verif.Proof.Cxx
import Verif.Spec.Cells
import Mathlib.Tactic.Ring
/- Contiguous arrays, and `apply` on memory that is not shared. -/
namespace Sg.PyNp
open Sg.LinearSolve Sg.Triangulate Sg.QuadIntersect Sg.Conserve Sg.Spec

section
set_option linter.unusedSectionVars false
variable {F : Type} [Zero F] [One F] [Add F] [Sub F] [Mul F] [Div F] [Neg F] [LT F] [DecidableLT F] [LE F] [DecidableLE F]
  [NatCast F]

theorem at_contiguous {m : Buffers F} {a : Arr} (hc : a.Contiguous) {i j : Nat} (hi : i < a.n0) (hj : j < a.n1) :
    a.at m i j = (m[a.buf]?).bind fun b => b[a.off + (i * a.n1 + j)]? := by
  have e : (a.off : Int) + i * a.s0 + j * a.s1 = ((a.off + (i * a.n1 + j) : Nat) : Int) := by
    rw [hc.1, hc.2]; push_cast; ring
  unfold Arr.at
  rw [e, if_pos ⟨hi, hj, Int.natCast_nonneg _⟩, Int.toNat_natCast]

theorem behind_ok {m : Buffers F} {a : Arr} (hf : a.Fits m) (hc : a.Contiguous) :
    ∃ b, m[a.buf]? = some b ∧ behind m a = .ok (b.drop a.off) ∧ a.n0 * a.n1 ≤ (b.drop a.off).length ∧
      ∀ i j, i < a.n0 → j < a.n1 → a.at m i j = (b.drop a.off)[i * a.n1 + j]? := by
  obtain ⟨h0, h1, h⟩ := hf
  have hl := h (a.n0 - 1) (by omega) (a.n1 - 1) (by omega)
  rw [at_contiguous hc (by omega) (by omega)] at hl
  cases hb : m[a.buf]? with
  | none => rw [hb] at hl; simp at hl
  | some b =>
    rw [hb] at hl
    simp only [Option.bind_some, Option.isSome_iff_ne_none, ne_eq, List.getElem?_eq_none_iff, not_le] at hl
    have e : (a.n0 - 1) * a.n1 + (a.n1 - 1) = a.n0 * a.n1 - 1 := by
      obtain ⟨n, hn⟩ := Nat.exists_eq_add_of_lt h0
      rw [hn, show 0 + n + 1 - 1 = n by omega, show (0 + n + 1) * a.n1 = n * a.n1 + a.n1 by ring]
      omega
    have hp : 0 < a.n0 * a.n1 := Nat.mul_pos h0 h1
    refine ⟨b, rfl, ?_, ?_, ?_⟩
    · unfold behind
      rw [vget_eq_ok.mpr hb]; rfl
    · rw [List.length_drop]; omega
    · intro i j hi hj
      rw [at_contiguous hc hi hj, hb, Option.bind_some, List.getElem?_drop]

/-- The nodes of a grid given by two contiguous arrays. -/
theorem gridNode_at {m : Buffers F} {x y : Arr} {xb yb : List F} (hxy : y.n0 = x.n0 ∧ y.n1 = x.n1)
    (hx : ∀ i j, i < x.n0 → j < x.n1 → x.at m i j = xb[i * x.n1 + j]?)
    (hy : ∀ i j, i < y.n0 → j < y.n1 → y.at m i j = yb[i * y.n1 + j]?) {i j : Nat} (hi : i < x.n0) (hj : j < x.n1) :
    gridNode (x.n0, x.n1) xb yb i j = ((x.at m i j).getD 0, (y.at m i j).getD 0) := by
  rw [hx i j hi hj, hy i j (by omega) (by omega), hxy.2]
  simp only [gridNode, List.getD_eq_getElem?_getD]

theorem gridCellAt_at {m : Buffers F} {x y : Arr} {xb yb : List F} (hxy : y.n0 = x.n0 ∧ y.n1 = x.n1)
    (hx : ∀ i j, i < x.n0 → j < x.n1 → x.at m i j = xb[i * x.n1 + j]?)
    (hy : ∀ i j, i < y.n0 → j < y.n1 → y.at m i j = yb[i * y.n1 + j]?) {i j : Nat} (hi : i + 1 < x.n0) (hj : j + 1 < x.n1) :
    gridCellAt (x.n0, x.n1) xb yb i j = cellOf m x y i j := by
  funext k
  fin_cases k
  · exact gridNode_at hxy hx hy (by omega) (by omega)
  · exact gridNode_at hxy hx hy (by omega) (by omega)
  · exact gridNode_at hxy hx hy (by omega) (by omega)
  · exact gridNode_at hxy hx hy (by omega) (by omega)

/-! ### apply -/

theorem foldlM_map {α β γ : Type} (φ : β → γ) (f : β → α → Cxx β) (f' : γ → α → Cxx γ)
    (h : ∀ b x, f' (φ b) x = (f b x).map φ) (l : List α) : ∀ b, l.foldlM f' (φ b) = (l.foldlM f b).map φ := by
  induction l with
  | nil => intro b; rfl
  | cons x l ih =>
    intro b
    rw [List.foldlM_cons, List.foldlM_cons, h]
    cases f b x with
    | error e => rfl
    | ok b' => exact ih b'

theorem load_set {m : Buffers F} {d : Arr} {b : List F} (hk : d.buf < m.length) (h0 : d.off = 0) (i : Nat) :
    load (m.set d.buf b) d i = vget b i := by
  unfold load
  rw [vget_eq_ok.mpr (by rw [List.getElem?_set_self hk] : (m.set d.buf b)[d.buf]? = some b), h0, Nat.zero_add]
  rfl

theorem store_set {m : Buffers F} {d : Arr} {b : List F} (hk : d.buf < m.length) (h0 : d.off = 0) (i : Nat) (x : F) :
    store (m.set d.buf b) d i x = (vset b i x).map (m.set d.buf ·) := by
  unfold store
  rw [vget_eq_ok.mpr (by rw [List.getElem?_set_self hk] : (m.set d.buf b)[d.buf]? = some b), h0, Nat.zero_add]
  simp only [bind, Except.bind]
  cases vset b i x with
  | error e => rfl
  | ok b' =>
    show vset (m.set d.buf b) d.buf b' = .ok (m.set d.buf b')
    rw [vset_ok (by simpa using hk), List.set_set]

theorem load_other {m : Buffers F} {d s : Arr} {b sb : List F} (hs : m[s.buf]? = some sb) (hne : s.buf ≠ d.buf) (i : Nat) :
    load (m.set d.buf b) s i = vget (sb.drop s.off) i := by
  unfold load
  rw [vget_eq_ok.mpr (by rw [List.getElem?_set_ne (Ne.symm hne)]; exact hs : (m.set d.buf b)[s.buf]? = some sb)]
  simp only [bind, Except.bind, vget, List.getElem?_drop]

/-- If source and destination do not share a buffer, `apply` on memory is `apply` on lists. -/
theorem nativeApply_eq (o : Interp F) {m : Buffers F} {s d : Arr} {b sb : List F} (hk : d.buf < m.length) (h0 : d.off = 0)
    (hs : m[s.buf]? = some sb) (hne : s.buf ≠ d.buf) :
    nativeApply o s d (m.set d.buf b) = (o.apply (sb.drop s.off) b).map (m.set d.buf ·) := by
  unfold nativeApply Interp.apply
  apply foldlM_map
  intro b e
  simp only [bind, Except.bind]
  rw [store_set hk h0]
  cases vset b e.1 0 with
  | error u => rfl
  | ok b' =>
    show List.foldlM _ (m.set d.buf b') e.2 = _
    refine foldlM_map (m.set d.buf ·) (fun (b : List F) p => do
      let v ← vget b e.1
      let x ← vget (sb.drop s.off) p.1
      vset b e.1 (v + p.2 * x)) _ ?_ e.2 b'
    intro b p
    simp only [bind, Except.bind]
    rw [load_set hk h0]
    cases vget b e.1 with
    | error u => rfl
    | ok v =>
      dsimp only
      rw [load_other hs hne]
      cases vget (sb.drop s.off) p.1 with
      | error u => rfl
      | ok x => exact store_set hk h0 _ _

end

end Sg.PyNp
