import Verif.Props.DataUnits
import Verif.Proof.RoundedEven
/-
Property C163: signs of the data.
-/
namespace Sg.Props
open Sg Sg.Spec

variable {rnd : ℝ → ℝ}

/-- **C163** In any rounded arithmetic that treats both signs alike, for any object and arrays: data with opposite signs give the opposite values, to the last bit.  This is so
for nodal, -/
theorem C163_nodes (hs : BothSigns rnd) (o : NodeInterp.NodeInterp (Fl rnd)) (src dst : List (Fl rnd)) :
    o.apply (opposite src) (opposite dst) = (o.apply src dst).map opposite :=
  node_units (φ := fun a : Fl rnd => ⟨-a.val⟩) (by rw [Fl.ext_iff]; exact neg_zero)
    (fun a b => by rw [Fl.ext_iff, Fl.add_val, Fl.add_val, ← hs]; congr 1; ring)
    (fun w a => by rw [Fl.ext_iff, Fl.mul_val, Fl.mul_val, ← hs]; congr 1; ring) o src dst

/-- **C163** for conservative, -/
theorem C163_cells (hs : BothSigns rnd) (o : Conserve.Interp (Fl rnd)) (src dst : List (Fl rnd)) :
    o.apply (opposite src) (opposite dst) = (o.apply src dst).map opposite :=
  cell_units (φ := fun a : Fl rnd => ⟨-a.val⟩) (by rw [Fl.ext_iff]; exact neg_zero)
    (fun a b => by rw [Fl.ext_iff, Fl.add_val, Fl.add_val, ← hs]; congr 1; ring)
    (fun w a => by rw [Fl.ext_iff, Fl.mul_val, Fl.mul_val, ← hs]; congr 1; ring) o src dst

/-- **C163** and for flow interpolation. -/
theorem C163_flows (hs : BothSigns rnd) (o : FlowInterp.Flow (Fl rnd)) (x y dst : List (Fl rnd)) :
    o.apply (opposite x) (opposite y) (opposite dst) = (o.apply x y dst).map opposite :=
  flow_units (φ := fun a : Fl rnd => ⟨-a.val⟩) (by rw [Fl.ext_iff]; exact neg_zero)
    (fun a b => by rw [Fl.ext_iff, Fl.add_val, Fl.add_val, ← hs]; congr 1; ring)
    (fun w a => by rw [Fl.ext_iff, Fl.mul_val, Fl.mul_val, ← hs]; congr 1; ring) o x y dst

/-- The hypothesis is met in double precision with halves to even; a table with two weights has opposite values for opposite data. -/
example (w1 w2 : Fl (nearestEven 53)) : ∃ (o : Conserve.Interp (Fl (nearestEven 53))) (v : Fl (nearestEven 53)), o.weights = [(0, [(0, w1), (1, w2)])] ∧
    o.apply [⟨1⟩, ⟨-3⟩] [⟨7⟩, ⟨5⟩] = .ok [v, ⟨5⟩] ∧ o.apply [⟨-1⟩, ⟨3⟩] [⟨-7⟩, ⟨-5⟩] = .ok [⟨-v.val⟩, ⟨-5⟩] := by
  let o : Conserve.Interp (Fl (nearestEven 53)) := { src := none, dst := none, weights := [(0, [(0, w1), (1, w2)])], it := none, it2 := none }
  have h : o.apply [⟨1⟩, ⟨-3⟩] [⟨7⟩, ⟨5⟩] = .ok [((0 : Fl (nearestEven 53)) + w1 * (⟨1⟩ : Fl (nearestEven 53))) + w2 * (⟨-3⟩ : Fl (nearestEven 53)), ⟨5⟩] := rfl
  refine ⟨o, _, rfl, h, ?_⟩
  have := C163_cells (nearestEven_bothSigns 53) o [⟨1⟩, ⟨-3⟩] [⟨7⟩, ⟨5⟩]
  rw [h] at this
  simpa [opposite, Except.map] using this

end Sg.Props
