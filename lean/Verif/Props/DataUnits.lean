import Verif.Proof.Rounded
import Verif.Model.ConserveInterp
import Verif.Model.FlowInterp
import Verif.Model.NodeInterp
import Verif.Spec.DataUnits
/-
Property C161: units of the data.
-/
namespace Sg.Props
open Sg Sg.Spec

section maps
variable {F : Type} {φ : F → F}

theorem vget_units (l : List F) (i : Nat) : vget (l.map φ) i = (vget l i).map φ := by
  unfold vget
  rw [List.getElem?_map]
  cases l[i]? <;> rfl

theorem vset_units (l : List F) (i : Nat) (a : F) : vset (l.map φ) i (φ a) = (vset l i a).map (List.map φ) := by
  unfold vset
  rw [List.length_map]
  split
  · rw [← List.map_set]; rfl
  · rfl

theorem foldlM_units {E : Type} {f f' : List F → E → Cxx (List F)} (h : ∀ d e, f' (d.map φ) e = (f d e).map (List.map φ)) (l : List E) :
    ∀ d : List F, l.foldlM f' (d.map φ) = (l.foldlM f d).map (List.map φ) := by
  induction l with
  | nil => intro d; rfl
  | cons e l ih =>
    intro d
    rw [List.foldlM_cons, List.foldlM_cons, h]
    cases f d e with
    | error u => rfl
    | ok d' => exact ih d'

theorem forFrom_units {f f' : Nat → List F → Cxx (List F)} (h : ∀ k d, f' k (d.map φ) = (f k d).map (List.map φ)) (n : Nat) :
    ∀ s (d : List F), forFrom s n (d.map φ) f' = (forFrom s n d f).map (List.map φ) := by
  induction n with
  | zero => intro s d; rfl
  | succ n ih =>
    intro s d
    unfold forFrom
    rw [h]
    cases f s d with
    | error u => rfl
    | ok d' => exact ih _ d'

theorem bind_units {α : Type} {x x' : Cxx F} (hx : x' = x.map φ) {f f' : F → Cxx α} {ψ : α → α} (h : ∀ a, f' (φ a) = (f a).map ψ) :
    (x' >>= f') = (x >>= f).map ψ := by
  subst hx
  cases x with
  | error u => rfl
  | ok a => exact h a

theorem bind_lists {x x' : Cxx (List F)} (hx : x' = x.map (List.map φ)) {f f' : List F → Cxx (List F)}
    (h : ∀ d, f' (d.map φ) = (f d).map (List.map φ)) : (x' >>= f') = (x >>= f).map (List.map φ) := by
  subst hx
  cases x with
  | error u => rfl
  | ok a => exact h a

theorem bind_same {α : Type} (x : Cxx α) {f f' : α → Cxx (List F)} (h : ∀ a, f' a = (f a).map (List.map φ)) :
    (x >>= f') = (x >>= f).map (List.map φ) := by
  cases x with
  | error u => rfl
  | ok a => exact h a

theorem vgetI_units (l : List F) (i : Int) : FindPoint.vgetI (l.map φ) i = (FindPoint.vgetI l i).map φ := by
  unfold FindPoint.vgetI
  split
  · exact vget_units l _
  · rfl

variable [Zero F] [Add F] [Mul F] (h0 : φ 0 = 0) (ha : ∀ a b, φ (a + b) = φ a + φ b) (hm : ∀ w a, φ (w * a) = w * φ a)
include h0

theorem zero_units (l : List F) (i : Nat) : vset (l.map φ) i 0 = (vset l i 0).map (List.map φ) := by
  have := vset_units (φ := φ) l i 0
  rwa [h0] at this

include ha hm

theorem node_units (o : NodeInterp.NodeInterp F) (src dst : List F) : o.apply (src.map φ) (dst.map φ) = (o.apply src dst).map (List.map φ) := by
  refine foldlM_units (fun d e => ?_) _ _
  refine bind_lists (zero_units h0 d _) fun d => foldlM_units (fun d p => ?_) _ _
  refine bind_units (vgetI_units src _) fun v => bind_units (vget_units d _) fun old => ?_
  rw [← hm, ← ha]
  exact vset_units _ _ _

theorem cell_units (o : Conserve.Interp F) (src dst : List F) : o.apply (src.map φ) (dst.map φ) = (o.apply src dst).map (List.map φ) := by
  refine foldlM_units (fun d e => ?_) _ _
  refine bind_lists (zero_units h0 d _) fun d => foldlM_units (fun d p => ?_) _ _
  refine bind_units (vget_units d _) fun v => bind_units (vget_units src _) fun s => ?_
  rw [← hm, ← ha]
  exact vset_units _ _ _

theorem flow_units (o : FlowInterp.Flow F) (x y dst : List F) :
    o.apply (x.map φ) (y.map φ) (dst.map φ) = (o.apply x y dst).map (List.map φ) := by
  refine foldlM_units (fun d e => ?_) _ _
  refine bind_lists (zero_units h0 d _) fun d => foldlM_units (fun d p => ?_) _ _
  cases o.src with
  | none => rfl
  | some src =>
    refine bind_same _ fun inds => bind_same _ fun i0 => bind_same _ fun i1 => forFrom_units (fun side d => ?_) _ _ _
    refine bind_same _ fun j0 => bind_same _ fun j1 => bind_same _ fun index => bind_units (vget_units d _) fun v => ?_
    refine bind_units (φ := φ) (x := FindPoint.vgetI (if side / 2 = 0 then x else y) index) ?_ fun s => ?_
    · rw [← vgetI_units]
      split <;> rfl
    · rw [← hm, ← ha]
      exact vset_units _ _ _

end maps

theorem unit_zero {rnd : ℝ → ℝ} (k : ℤ) : toUnit k (0 : Fl rnd) = 0 := by simp [toUnit, Fl.ext_iff, Fl.zero_val]

theorem value_fold {F E : Type} {φ : F → F} {f f' : F → E → Cxx F} (h : ∀ a e, f' (φ a) e = (f a e).map φ) (l : List E) :
    ∀ a : F, l.foldlM f' (φ a) = (l.foldlM f a).map φ := by
  induction l with
  | nil => intro a; rfl
  | cons e l ih =>
    intro a
    rw [List.foldlM_cons, List.foldlM_cons, h]
    cases f a e with
    | error u => rfl
    | ok b => exact ih b

/-- Rounding to `p` binary digits commutes with powers of two. -/
theorem nearest_scale (p : Nat) (k : ℤ) (x : ℝ) : nearest p (2 ^ k * x) = 2 ^ k * nearest p x := by
  by_cases hx : x = 0
  · subst hx; simp [nearest]
  have h2 : (2 : ℝ) ^ k ≠ 0 := by positivity
  have hpos : 0 < |x| := abs_pos.2 hx
  have hlog : Int.log 2 |2 ^ k * x| = k + Int.log 2 |x| := by
    have hpos' : 0 < |2 ^ k * x| := abs_pos.2 (mul_ne_zero h2 hx)
    have key : ∀ e : ℤ, e ≤ Int.log 2 |2 ^ k * x| ↔ e ≤ k + Int.log 2 |x| := by
      intro e
      rw [← Int.zpow_le_iff_le_log (by norm_num) hpos', abs_mul, abs_of_pos (show (0 : ℝ) < 2 ^ k by positivity), ← sub_le_iff_le_add',
        ← Int.zpow_le_iff_le_log (by norm_num) hpos, Nat.cast_ofNat, zpow_sub₀ (by norm_num), div_le_iff₀ (by positivity), mul_comm |x|]
    exact le_antisymm ((key _).1 le_rfl) ((key _).2 le_rfl)
  have hulp : ulp p (2 ^ k * x) = 2 ^ k * ulp p x := by
    unfold ulp
    rw [hlog, ← zpow_add₀ (by norm_num)]
    congr 1
    ring
  unfold nearest
  rw [hulp, mul_div_mul_left _ _ h2]
  ring

variable {p : Nat}

/-- **C161** In binary arithmetic with `p` digits (53: double), for any object and arrays: data in units that are smaller or larger by a power of two give the same
values in these units, to the last bit.  This is so for nodal, -/
theorem C161_nodes (o : NodeInterp.NodeInterp (Fl (nearest p))) (k : ℤ) (src dst : List (Fl (nearest p))) :
    o.apply (inUnits k src) (inUnits k dst) = (o.apply src dst).map (inUnits k) :=
  node_units (φ := toUnit k) (by simp [toUnit, Fl.ext_iff, Fl.zero_val])
    (fun a b => by simp only [toUnit, Fl.ext_iff, Fl.add_val, ← mul_add, nearest_scale])
    (fun w a => by rw [Fl.ext_iff, Fl.mul_val]; simp only [toUnit, Fl.mul_val]; rw [mul_left_comm, nearest_scale]) o src dst

/-- **C161** for conservative, -/
theorem C161_cells (o : Conserve.Interp (Fl (nearest p))) (k : ℤ) (src dst : List (Fl (nearest p))) :
    o.apply (inUnits k src) (inUnits k dst) = (o.apply src dst).map (inUnits k) :=
  cell_units (φ := toUnit k) (by simp [toUnit, Fl.ext_iff, Fl.zero_val])
    (fun a b => by simp only [toUnit, Fl.ext_iff, Fl.add_val, ← mul_add, nearest_scale])
    (fun w a => by rw [Fl.ext_iff, Fl.mul_val]; simp only [toUnit, Fl.mul_val]; rw [mul_left_comm, nearest_scale]) o src dst

/-- **C161** and for flow interpolation. -/
theorem C161_flows (o : FlowInterp.Flow (Fl (nearest p))) (k : ℤ) (x y dst : List (Fl (nearest p))) :
    o.apply (inUnits k x) (inUnits k y) (inUnits k dst) = (o.apply x y dst).map (inUnits k) :=
  flow_units (φ := toUnit k) (by simp [toUnit, Fl.ext_iff, Fl.zero_val])
    (fun a b => by simp only [toUnit, Fl.ext_iff, Fl.add_val, ← mul_add, nearest_scale])
    (fun w a => by rw [Fl.ext_iff, Fl.mul_val]; simp only [toUnit, Fl.mul_val]; rw [mul_left_comm, nearest_scale]) o x y dst

/-- **C161** So it is for the value at any position, in any number of dimensions. -/
theorem C161_interp {n : Nat} (dims : Fin n → Nat) (d : Fin n → Fl (nearest p)) (k : ℤ) (field : List (Fl (nearest p))) :
    FindPoint.interp dims d (inUnits k field) = (FindPoint.interp dims d field).map (toUnit k) := by
  unfold FindPoint.interp
  cases FindPoint.getSrcIndicesAndWeights dims d with
  | error u => rfl
  | ok iw =>
    have := value_fold (φ := toUnit k) (f := fun res e => do
        let v ← FindPoint.vgetI field e.1
        return res + e.2 * v) (f' := fun res e => do
        let v ← FindPoint.vgetI (inUnits k field) e.1
        return res + e.2 * v) (fun a e => bind_units (vgetI_units field _) fun v => by
          show Except.ok _ = Except.ok _
          congr 1
          simp only [toUnit, Fl.ext_iff, Fl.add_val, Fl.mul_val]
          rw [mul_left_comm, nearest_scale, ← mul_add, nearest_scale]) iw 0
    rw [unit_zero] at this
    exact this

/-- A table with two weights: the data 1 and 3 give 2, and in units of a quarter, where they are 4 and 12, they give 8; the second value is the caller's. -/
example : ∃ o : Conserve.Interp (Fl (nearest 53)), o.apply [⟨1⟩, ⟨3⟩] [⟨7⟩, ⟨5⟩] = .ok [⟨2⟩, ⟨5⟩] ∧ o.apply [⟨4⟩, ⟨12⟩] [⟨28⟩, ⟨20⟩] = .ok [⟨8⟩, ⟨20⟩] := by
  have e : ∀ m k : ℤ, |m| < 2 ^ 53 → nearest 53 (m * 2 ^ k) = m * 2 ^ k := fun m k h => nearest_exact h
  have e1 : nearest 53 (1 / 2) = 1 / 2 := by have := e 1 (-1) (by norm_num); norm_num at this ⊢; exact this
  have e2 : nearest 53 (3 / 2) = 3 / 2 := by have := e 3 (-1) (by norm_num); norm_num at this ⊢; exact this
  have e3 : nearest 53 2 = 2 := by have := e 2 0 (by norm_num); norm_num at this ⊢; exact this
  let o : Conserve.Interp (Fl (nearest 53)) := { src := none, dst := none, weights := [(0, [(0, ⟨1 / 2⟩), (1, ⟨1 / 2⟩)])], it := none, it2 := none }
  have h : o.apply [⟨1⟩, ⟨3⟩] [⟨7⟩, ⟨5⟩] = .ok [⟨2⟩, ⟨5⟩] := by
    have a1 : (0 : Fl (nearest 53)) + ⟨1 / 2⟩ * ⟨1⟩ = ⟨1 / 2⟩ := by
      rw [Fl.ext_iff, Fl.add_val, Fl.mul_val, Fl.zero_val, mul_one, e1, zero_add, e1]
    have a2 : (⟨1 / 2⟩ : Fl (nearest 53)) + ⟨1 / 2⟩ * ⟨3⟩ = ⟨2⟩ := by
      rw [Fl.ext_iff, Fl.add_val, Fl.mul_val]
      dsimp only
      rw [show (1 / 2 * 3 : ℝ) = 3 / 2 by norm_num, e2, show (1 / 2 + 3 / 2 : ℝ) = 2 by norm_num, e3]
    have : o.apply [⟨1⟩, ⟨3⟩] [⟨7⟩, ⟨5⟩] = .ok [((0 : Fl (nearest 53)) + (⟨1 / 2⟩ : Fl (nearest 53)) * (⟨1⟩ : Fl (nearest 53))) +
        (⟨1 / 2⟩ : Fl (nearest 53)) * (⟨3⟩ : Fl (nearest 53)), (⟨5⟩ : Fl (nearest 53))] := rfl
    rw [this, a1, a2]
  refine ⟨o, h, ?_⟩
  have := C161_cells o 2 [⟨1⟩, ⟨3⟩] [⟨7⟩, ⟨5⟩]
  rw [h] at this
  simp only [inUnits, toUnit, List.map, Except.map] at this
  norm_num at this
  exact this

end Sg.Props
