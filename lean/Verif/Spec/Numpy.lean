import Verif.Model.PyArrays
/-
What a Python program sees of a numpy array.
-/
namespace Sg.PyNp

variable {F : Type}

/-- `a[i, j]`. -/
def Arr.at (m : Buffers F) (a : Arr) (i j : Nat) : Option F :=
  if i < a.n0 ∧ j < a.n1 ∧ 0 ≤ (a.off : Int) + i * a.s0 + j * a.s1 then
    (m[a.buf]?).bind fun b => b[((a.off : Int) + i * a.s0 + j * a.s1).toNat]?
  else none

/-- All entries of the array are in its buffer (numpy makes no other arrays); there is at least one. -/
def Arr.Fits (m : Buffers F) (a : Arr) : Prop := 0 < a.n0 ∧ 0 < a.n1 ∧ ∀ i < a.n0, ∀ j < a.n1, (a.at m i j).isSome

/-- The entries follow each other row by row (numpy's flag `C_CONTIGUOUS`). -/
def Arr.Contiguous (a : Arr) : Prop := a.s0 = a.n1 ∧ a.s1 = 1

/-- The corners of a cell of the grid whose node `(i, j)` is `(x[i, j], y[i, j])`, in order around the cell. -/
def cellOf [Zero F] (m : Buffers F) (x y : Arr) (i j : Nat) : Fin 4 → F × F := fun k =>
  match k with
  | 0 => ((x.at m i j).getD 0, (y.at m i j).getD 0)
  | 1 => ((x.at m (i + 1) j).getD 0, (y.at m (i + 1) j).getD 0)
  | 2 => ((x.at m (i + 1) (j + 1)).getD 0, (y.at m (i + 1) (j + 1)).getD 0)
  | 3 => ((x.at m i (j + 1)).getD 0, (y.at m i (j + 1)).getD 0)

end Sg.PyNp
