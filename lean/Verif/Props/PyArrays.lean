import Verif.Proof.PyArrays
import Verif.Props.ConserveTotals
import Verif.Proof.FindPoint
import Verif.Model.PyWrapper
/-
Properties C94 to C96: the Python wrapper with its arrays and the native object.
-/
namespace Sg.Props
open Sg.LinearSolve Sg.Triangulate Sg.QuadIntersect Sg.Conserve Sg.Spec Sg.Plane Sg.PyNp Sg.Witness
open Sg.FindPoint (bind_ok_inv)

section
set_option linter.unusedSectionVars false
variable {F : Type} [Zero F] [One F] [Add F] [Sub F] [Mul F] [Div F] [Neg F] [LT F] [DecidableLT F] [LE F] [DecidableLE F]
  [NatCast F]

/-! ### C94 -/

theorem at_append (m : Buffers F) (l : List F) (a : Arr) (h : a.buf < m.length) (i j : Nat) :
    a.at (m ++ [l]) i j = a.at m i j := by
  unfold Arr.at
  rw [List.getElem?_append_left h]

theorem zeros_at (m : Buffers F) (n0 n1 i j : Nat) (hi : i < n0) (hj : j < n1) :
    (zeros m n0 n1).2.at (zeros m n0 n1).1 i j = some 0 := by
  rw [at_contiguous ⟨rfl, rfl⟩ hi hj]
  have hlt : i * n1 + j < n0 * n1 :=
    calc i * n1 + j < i * n1 + n1 := by omega
      _ = (i + 1) * n1 := by ring
      _ ≤ _ := Nat.mul_le_mul_right _ hi
  simp only [zeros, List.getElem?_append_right (Nat.le_refl _), Nat.sub_self, List.getElem?_cons_zero, Option.bind_some,
    Nat.zero_add, List.getElem?_replicate, if_pos hlt]

/-- What is stored for a grid given by two contiguous arrays. -/
theorem grid_stored {m : Buffers F} {x y : Arr} (hx : x.Fits m) (hy : y.Fits m) (cx : x.Contiguous) (cy : y.Contiguous)
    (hxy : y.n0 = x.n0 ∧ y.n1 = x.n1) :
    ∃ xb yb gr, behind m x = .ok xb ∧ behind m y = .ok yb ∧ makeGrid (x.n0, x.n1) xb yb = .ok gr ∧
      gr.nodeDims = (x.n0, x.n1) ∧
      ∀ i j, i < x.n0 → j < x.n1 →
        ∃ a b, x.at m i j = some a ∧ y.at m i j = some b ∧ gr.nodeCoord (i * x.n1 + j) = .ok (a, b) := by
  obtain ⟨xb, -, ex, lx, px⟩ := behind_ok hx cx
  obtain ⟨yb, -, ey, ly, py⟩ := behind_ok hy cy
  rw [hxy.1, hxy.2] at ly
  obtain ⟨gr, e, hd, -, hn⟩ := makeGrid_ok (x.n0, x.n1) _ _ lx ly
  refine ⟨_, _, gr, ex, ey, e, hd, ?_⟩
  intro i j hi hj
  have hlt : i * x.n1 + j < x.n0 * x.n1 :=
    calc i * x.n1 + j < i * x.n1 + x.n1 := by omega
      _ = (i + 1) * x.n1 := by ring
      _ ≤ _ := Nat.mul_le_mul_right _ hi
  have e1 := px i j hi hj
  have e2 := py i j (by omega) (by omega)
  rw [hxy.2] at e2
  rw [getD_of_lt (lt_of_lt_of_le hlt lx)] at e1
  rw [getD_of_lt (lt_of_lt_of_le hlt ly)] at e2
  exact ⟨_, _, e1, e2, hn _ hlt⟩

/-- **C94**, what holds: if both arrays are contiguous and have the same shape, node `(i, j)` of the destination grid that
the library stores is `(x[i, j], y[i, j])`; nothing else of the native object changes.  A new array of zeros with an entry
per cell is made for the results; the other arrays keep their values. -/
theorem C94_dst_partial (w : World F) (x y : Arr) (hx : x.Fits w.mem) (hy : y.Fits w.mem) (cx : x.Contiguous)
    (cy : y.Contiguous) (hxy : y.n0 = x.n0 ∧ y.n1 = x.n1) :
    ∃ w' gr d, w.setDstGrid x y = .ok (.returned, w') ∧ w'.handle = { w.handle with dst := some gr } ∧
      gr.nodeDims = (x.n0, x.n1) ∧
      (∀ i j, i < x.n0 → j < x.n1 →
        ∃ a b, x.at w.mem i j = some a ∧ y.at w.mem i j = some b ∧ gr.nodeCoord (i * x.n1 + j) = .ok (a, b)) ∧
      w'.dstData = some d ∧ d.n0 = x.n0 - 1 ∧ d.n1 = x.n1 - 1 ∧
      (∀ i j, i < d.n0 → j < d.n1 → d.at w'.mem i j = some 0) ∧
      ∀ (a : Arr), a.buf < w.mem.length → a.buf ≠ d.buf ∧ ∀ i j, a.at w'.mem i j = a.at w.mem i j := by
  obtain ⟨xb, yb, gr, ex, ey, e, hd, hn⟩ := grid_stored hx hy cx cy hxy
  refine ⟨{ w with handle := { w.handle with dst := some gr }, mem := (zeros w.mem (x.n0 - 1) (x.n1 - 1)).1,
                   dstData := some (zeros w.mem (x.n0 - 1) (x.n1 - 1)).2 }, gr, (zeros w.mem (x.n0 - 1) (x.n1 - 1)).2, ?_, rfl,
    hd, hn, rfl, rfl, rfl, ?_, ?_⟩
  · simp only [World.setDstGrid, Interp.setDstGrid, ex, ey, e, bind, Except.bind, pure, Except.pure]
  · intro i j hi hj
    exact zeros_at _ _ _ _ _ hi hj
  · intro a ha
    refine ⟨by simp only [zeros]; omega, fun i j => at_append _ _ _ ha i j⟩

/-- **C94** for the source grid. -/
theorem C94_src_partial (w : World F) (p : Nat × Nat) (x y : Arr) (hx : x.Fits w.mem) (hy : y.Fits w.mem) (cx : x.Contiguous)
    (cy : y.Contiguous) (hxy : y.n0 = x.n0 ∧ y.n1 = x.n1) :
    ∃ w' gr, w.setSrcGrid p x y = .ok (.returned, w') ∧ w'.handle = { w.handle with src := some gr } ∧
      gr.nodeDims = (x.n0, x.n1) ∧
      (∀ i j, i < x.n0 → j < x.n1 →
        ∃ a b, x.at w.mem i j = some a ∧ y.at w.mem i j = some b ∧ gr.nodeCoord (i * x.n1 + j) = .ok (a, b)) ∧
      w'.dstData = w.dstData ∧ w'.mem = w.mem := by
  obtain ⟨xb, yb, gr, ex, ey, e, hd, hn⟩ := grid_stored hx hy cx cy hxy
  refine ⟨{ w with handle := { w.handle with src := some gr }, hasSrcCoords := true }, gr, ?_, rfl, hd, hn, rfl, rfl⟩
  · simp only [World.setSrcGrid, Interp.setSrcGrid, ex, ey, e, bind, Except.bind, pure, Except.pure]

/-- Statements that set no grid and compute no weights. -/
def Harmless : Stmt F → Prop
  | .apply _ => True | .create _ => True | .write _ _ _ => True | _ => False

theorem apply_inv {w w' : World F} {s : Arr} {r : Reply} (h : w.apply s = .ok (r, w')) :
    (r = .raised ∧ w' = w) ∨ (w.hasInterpWeights = true ∧ ∃ d m m', w.dstData = some d ∧ r = .array d ∧
      timesZero w.mem d = .ok m ∧ nativeApply w.handle s d m = .ok m' ∧ w' = { w with mem := m' }) := by
  unfold World.apply at h
  split at h
  · cases h; exact .inl ⟨rfl, rfl⟩
  · rename_i hw
    split at h
    · cases h; exact .inl ⟨rfl, rfl⟩
    · rename_i d hd
      obtain ⟨m, e, h⟩ := bind_ok_inv h
      obtain ⟨m', e', h⟩ := bind_ok_inv h
      cases h
      exact .inr ⟨by simpa using hw, d, m, m', hd, rfl, e, e', rfl⟩

theorem harmless_step {g : Gels F} {sort : List (Pt F) → List (Pt F)} {mode : Mode} {w : World F} {c : Stmt F}
    (hc : Harmless c) {r : Reply × World F} (h : w.step g sort mode c = .ok r) :
    r.2.handle = w.handle ∧ r.2.dstData = w.dstData ∧ r.2.hasInterpWeights = w.hasInterpWeights ∧
      r.2.hasSrcCoords = w.hasSrcCoords := by
  obtain ⟨r, w'⟩ := r
  cases c with
  | setDstGrid x y => exact hc.elim
  | setSrcGrid p x y => exact hc.elim
  | computeWeights => exact hc.elim
  | apply s =>
    rcases apply_inv h with ⟨_, rfl⟩ | ⟨_, d, m, m', _, _, _, _, rfl⟩
    · exact ⟨rfl, rfl, rfl, rfl⟩
    · exact ⟨rfl, rfl, rfl, rfl⟩
  | create l => cases h; exact ⟨rfl, rfl, rfl, rfl⟩
  | write b k v =>
    obtain ⟨m, _, h⟩ := bind_ok_inv h
    cases h; exact ⟨rfl, rfl, rfl, rfl⟩

/-- **C94**: the library keeps copies.  Whatever is written to arrays afterwards, the coordinate arrays included, and
whatever is interpolated, grids and weights stay. -/
theorem C94_copies (g : Gels F) (sort : List (Pt F) → List (Pt F)) (mode : Mode) (l : List (Stmt F))
    (hl : ∀ c ∈ l, Harmless c) : ∀ w w' : World F, w.run g sort mode l = .ok w' →
      w'.handle = w.handle ∧ w'.dstData = w.dstData ∧ w'.hasInterpWeights = w.hasInterpWeights ∧
      w'.hasSrcCoords = w.hasSrcCoords := by
  induction l with
  | nil => intro w w' h; cases h; exact ⟨rfl, rfl, rfl, rfl⟩
  | cons c l ih =>
    intro w w' h
    obtain ⟨r, e, h⟩ := bind_ok_inv h
    obtain ⟨a1, a2, a3, a4⟩ := harmless_step (hl c (List.mem_cons_self ..)) e
    obtain ⟨b1, b2, b3, b4⟩ := ih (fun c hc => hl c (List.mem_cons_of_mem _ hc)) _ _ h
    exact ⟨b1.trans a1, b2.trans a2, b3.trans a3, b4.trans a4⟩

/-! ### The flags are those of the model without arrays -/

/-- The methods in a program, with the shapes of grids. -/
def methodOf : Stmt F → Option Py.Call
  | .setDstGrid x _ => some (.setDstGrid ⟨x.n0, x.n1, 0⟩)
  | .setSrcGrid _ x _ => some (.setSrcGrid ⟨x.n0, x.n1, 0⟩)
  | .computeWeights => some .computeWeights
  | .apply _ => some .apply
  | _ => none

/-- The two models agree on the attributes of the Python object. -/
def SameFlags (w : World F) (o : Py.Obj) : Prop :=
  w.hasSrcCoords = o.hasSrcCoords ∧ w.hasInterpWeights = o.hasInterpWeights ∧
    w.dstData.map (fun d => (d.n0, d.n1)) = o.dstData

theorem sameFlags_step {g : Gels F} {sort : List (Pt F) → List (Pt F)} {mode : Mode} {w : World F} {o : Py.Obj}
    (hf : SameFlags w o) (ho : o.hasInterpWeights = true → o.dstData.isSome) {c : Stmt F} {r : Reply × World F}
    (h : w.step g sort mode c = .ok r) :
    match methodOf c with
    | some c' => SameFlags r.2 (Py.call o c').2 ∧ (r.1 = .raised ↔ (Py.call o c').1 = false) ∧
        ((Py.call o c').2.hasInterpWeights = true → (Py.call o c').2.dstData.isSome)
    | none => SameFlags r.2 o ∧ r.1 ≠ .raised := by
  obtain ⟨h1, h2, h3⟩ := hf
  obtain ⟨r, w'⟩ := r
  cases c with
  | setDstGrid x y =>
    obtain ⟨xs, _, h⟩ := bind_ok_inv h
    obtain ⟨ys, _, h⟩ := bind_ok_inv h
    obtain ⟨hh, _, h⟩ := bind_ok_inv h
    cases h
    exact ⟨⟨h1, h2, rfl⟩, by simp [Py.call], by simp [Py.call]⟩
  | setSrcGrid p x y =>
    obtain ⟨xs, _, h⟩ := bind_ok_inv h
    obtain ⟨ys, _, h⟩ := bind_ok_inv h
    obtain ⟨hh, _, h⟩ := bind_ok_inv h
    cases h
    exact ⟨⟨rfl, h2, h3⟩, by simp [Py.call], by simpa [Py.call] using ho⟩
  | computeWeights =>
    simp only [World.step, World.computeWeights, h1] at h
    have hd : w.dstData.isNone = o.dstData.isNone := by rw [← h3]; cases w.dstData <;> rfl
    rw [hd] at h
    simp only [methodOf, Py.call]
    split at h
    · rename_i hc
      cases h
      simp only [hc, if_true]
      exact ⟨⟨h1, h2, h3⟩, by simp, ho⟩
    · rename_i hc
      split at h
      · rename_i hn
        cases h
        simp only [hc, hn, if_true]
        exact ⟨⟨h1, h2, h3⟩, by simp, ho⟩
      · rename_i hn
        obtain ⟨hh, _, h⟩ := bind_ok_inv h
        cases h
        simp only [hc, hn, Bool.false_eq_true, if_false]
        refine ⟨⟨rfl, rfl, h3⟩, by simp, ?_⟩
        intro _
        cases hq : o.dstData with
        | none => rw [hq] at hn; simp at hn
        | some q => rfl
  | apply s =>
    simp only [methodOf, Py.call]
    rcases apply_inv h with ⟨rfl, rfl⟩ | ⟨hw, d, m, m', hd, rfl, _, _, rfl⟩
    · simp only [World.step, World.apply, h2] at h
      split at h
      · rename_i hc
        simp only [hc, if_true]
        exact ⟨⟨h1, h2, h3⟩, by simp, ho⟩
      · rename_i hc
        exfalso
        have := ho (by simpa using hc)
        split at h
        · rename_i hn
          rw [← h3, hn] at this; simp at this
        · obtain ⟨_, _, h⟩ := bind_ok_inv h
          obtain ⟨_, _, h⟩ := bind_ok_inv h
          cases h
    · rw [h2] at hw
      have e : (!o.hasInterpWeights) = false := by rw [hw]; rfl
      simp only [e, Bool.false_eq_true, if_false]
      exact ⟨⟨h1, h2, h3⟩, by simp, ho⟩
  | create l => cases h; exact ⟨⟨h1, h2, h3⟩, by simp⟩
  | write b k v =>
    obtain ⟨m, _, h⟩ := bind_ok_inv h
    cases h; exact ⟨⟨h1, h2, h3⟩, by simp⟩

theorem sameFlags_run {g : Gels F} {sort : List (Pt F) → List (Pt F)} {mode : Mode} (l : List (Stmt F)) :
    ∀ (w w' : World F) (cs : List Py.Call), SameFlags w (Py.run cs) →
      ((Py.run cs).hasInterpWeights = true → (Py.run cs).dstData.isSome) → w.run g sort mode l = .ok w' →
      SameFlags w' (Py.run (cs ++ l.filterMap methodOf)) ∧
      ((Py.run (cs ++ l.filterMap methodOf)).hasInterpWeights = true →
        (Py.run (cs ++ l.filterMap methodOf)).dstData.isSome) := by
  induction l with
  | nil => intro w w' cs h1 h2 h; cases h; simpa using ⟨h1, h2⟩
  | cons c l ih =>
    intro w w' cs h1 h2 h
    obtain ⟨r, e, h⟩ := bind_ok_inv h
    have hs := sameFlags_step h1 h2 e
    cases hm : methodOf c with
    | none =>
      rw [hm] at hs
      rw [List.filterMap_cons_none hm]
      exact ih _ _ cs hs.1 h2 h
    | some c' =>
      rw [hm] at hs
      rw [List.filterMap_cons_some hm]
      have hr : Py.run (cs ++ [c']) = (Py.call (Py.run cs) c').2 := by simp [Py.run, List.foldl_append]
      have := ih r.2 w' (cs ++ [c']) (by rw [hr]; exact hs.1) (by rw [hr]; exact hs.2.2) h
      rwa [List.append_assoc] at this

/-- **C73** with arrays and the native object: after any program that has not run into undefined behaviour, a method raises
exactly if it does so in the model of C73 and C74 (where the conditions are those of `C73_guards`). -/
theorem C73_arrays (g : Gels F) (sort : List (Pt F) → List (Pt F)) (mode : Mode) (em : EndMode) (mem : Buffers F)
    (l : List (Stmt F)) (w : World F) (hrun : (init em mem >>= fun w0 => w0.run g sort mode l) = .ok w)
    (c : Stmt F) (c' : Py.Call) (hc : methodOf c = some c') (r : Reply × World F) (h : w.step g sort mode c = .ok r) :
    r.1 = .raised ↔ (Py.call (Py.run (l.filterMap methodOf)) c').1 = false := by
  obtain ⟨w0, e0, hrun⟩ := bind_ok_inv hrun
  obtain ⟨hh, _, e0⟩ := bind_ok_inv e0
  cases e0
  have := sameFlags_run l _ w [] ⟨rfl, rfl, rfl⟩ (by simp [Py.run, Py.init]) hrun
  rw [List.nil_append] at this
  have hs := sameFlags_step this.1 this.2 h
  rw [hc] at hs
  exact hs.2.1

/-! ### C95 -/

/-- The result array is a whole buffer and has an entry per cell of the destination grid. -/
def OwnsResult (w : World F) : Prop :=
  ∀ d, w.dstData = some d → d.off = 0 ∧ d.Contiguous ∧
    ∃ gr b, w.handle.dst = some gr ∧ w.mem[d.buf]? = some b ∧ b.length = d.n0 * d.n1 ∧
      d.n0 = gr.nodeDims.1 - 1 ∧ d.n1 = gr.nodeDims.2 - 1

/-- Writing keeps the sizes of all buffers. -/
theorem store_sizes {m m' : Buffers F} {a : Arr} {k : Nat} {x : F} (h : store m a k x = .ok m') (i : Nat) :
    (m'[i]?).map List.length = (m[i]?).map List.length := by
  obtain ⟨b, e1, h⟩ := bind_ok_inv h
  obtain ⟨b', e2, h⟩ := bind_ok_inv h
  have hb := vget_eq_ok.mp e1
  unfold vset at e2 h
  split at e2
  · cases e2
    split at h
    · cases h
      rw [List.getElem?_set]
      split
      · subst_vars
        simp [hb]
      · rfl
    · cases h
  · cases e2

theorem foldlM_sizes {α : Type} (f : Buffers F → α → Cxx (Buffers F))
    (hf : ∀ m x m', f m x = .ok m' → ∀ i : Nat, (m'[i]?).map List.length = (m[i]?).map List.length) (l : List α) :
    ∀ m m', l.foldlM f m = .ok m' → ∀ i : Nat, (m'[i]?).map List.length = (m[i]?).map List.length := by
  induction l with
  | nil => intro m m' h i; cases h; rfl
  | cons x l ih =>
    intro m m' h i
    rw [List.foldlM_cons] at h
    obtain ⟨m1, e, h⟩ := bind_ok_inv h
    rw [ih m1 m' h i, hf m x m1 e i]

theorem nativeApply_sizes {o : Interp F} {s d : Arr} {m m' : Buffers F} (h : nativeApply o s d m = .ok m') (i : Nat) :
    (m'[i]?).map List.length = (m[i]?).map List.length := by
  refine foldlM_sizes _ ?_ o.weights m m' h i
  intro m e m' h i
  obtain ⟨m1, e1, h⟩ := bind_ok_inv h
  rw [← store_sizes e1 i]
  refine foldlM_sizes _ ?_ e.2 m1 m' h i
  intro m p m' h i
  obtain ⟨v, _, h⟩ := bind_ok_inv h
  obtain ⟨x, _, h⟩ := bind_ok_inv h
  exact store_sizes h i

theorem timesZero_sizes {m m' : Buffers F} {d : Arr} (h : timesZero m d = .ok m') (i : Nat) :
    (m'[i]?).map List.length = (m[i]?).map List.length := by
  obtain ⟨b, e1, h⟩ := bind_ok_inv h
  have hb := vget_eq_ok.mp e1
  unfold vset at h
  split at h
  · cases h
    rw [List.getElem?_set]
    split
    · subst_vars
      simp [hb]
    · rfl
  · cases h

theorem owns_of_sizes {w w' : World F} (h1 : w'.dstData = w.dstData) (h2 : w'.handle.dst = w.handle.dst)
    (h3 : ∀ i : Nat, i < w.mem.length → (w'.mem[i]?).map List.length = (w.mem[i]?).map List.length) (h : OwnsResult w) :
    OwnsResult w' := by
  intro d hd
  rw [h1] at hd
  obtain ⟨a, b, gr, l, e1, e2, e3, e4⟩ := h d hd
  have hlt : d.buf < w.mem.length := (List.getElem?_eq_some_iff.mp e2).1
  have := h3 d.buf hlt
  rw [e2] at this
  cases hq : w'.mem[d.buf]? with
  | none => rw [hq] at this; simp at this
  | some l' =>
    rw [hq] at this
    simp only [Option.map_some, Option.some.injEq] at this
    exact ⟨a, b, gr, l', by rw [h2]; exact e1, rfl, by rw [this]; exact e3, e4⟩

theorem owns_step {g : Gels F} {sort : List (Pt F) → List (Pt F)} {mode : Mode} {w : World F} {c : Stmt F}
    {r : Reply × World F} (h : w.step g sort mode c = .ok r) (ho : OwnsResult w) : OwnsResult r.2 := by
  obtain ⟨r, w'⟩ := r
  cases c with
  | setDstGrid x y =>
    obtain ⟨xs, _, h⟩ := bind_ok_inv h
    obtain ⟨ys, _, h⟩ := bind_ok_inv h
    obtain ⟨hh, e, h⟩ := bind_ok_inv h
    cases h
    obtain ⟨gr, e', e⟩ := bind_ok_inv e
    cases e
    have hd : gr.nodeDims = (x.n0, x.n1) := by
      obtain ⟨_, _, e'⟩ := bind_ok_inv e'
      obtain ⟨_, _, e'⟩ := bind_ok_inv e'
      cases e'; rfl
    intro d hq
    cases hq
    refine ⟨rfl, ⟨rfl, rfl⟩, gr, List.replicate ((x.n0 - 1) * (x.n1 - 1)) 0, rfl, ?_, by simp [zeros], by rw [hd]; rfl,
      by rw [hd]; rfl⟩
    show (w.mem ++ [_])[w.mem.length]? = _
    rw [List.getElem?_append_right (Nat.le_refl _), Nat.sub_self]; rfl
  | setSrcGrid p x y =>
    obtain ⟨xs, _, h⟩ := bind_ok_inv h
    obtain ⟨ys, _, h⟩ := bind_ok_inv h
    obtain ⟨hh, e, h⟩ := bind_ok_inv h
    cases h
    exact owns_of_sizes (w := w) rfl (setSrc_weights e).2 (fun _ _ => rfl) ho
  | computeWeights =>
    simp only [World.step, World.computeWeights] at h
    split at h
    · cases h; exact ho
    · split at h
      · cases h; exact ho
      · obtain ⟨hh, e, h⟩ := bind_ok_inv h
        cases h
        refine owns_of_sizes (w := w) rfl ?_ (fun _ _ => rfl) ho
        unfold Interp.computeWeights at e
        split at e
        · obtain ⟨_, _, e⟩ := bind_ok_inv e
          cases e; rfl
        · split at e
          · cases e; rfl
          · cases e
        · cases e
  | apply s =>
    rcases apply_inv h with ⟨_, rfl⟩ | ⟨_, d, m, m', _, _, e1, e2, rfl⟩
    · exact ho
    · exact owns_of_sizes (w := w) rfl rfl (fun i _ => by rw [nativeApply_sizes e2 i, timesZero_sizes e1 i]) ho
  | create l =>
    cases h
    refine owns_of_sizes (w := w) rfl rfl (fun i hi => ?_) ho
    show ((w.mem ++ [l])[i]?).map _ = _
    rw [List.getElem?_append_left hi]
  | write b k v =>
    obtain ⟨m, e, h⟩ := bind_ok_inv h
    cases h
    exact owns_of_sizes (w := w) rfl rfl (fun i _ => store_sizes e i) ho

theorem owns_run {g : Gels F} {sort : List (Pt F) → List (Pt F)} {mode : Mode} (l : List (Stmt F)) :
    ∀ w w' : World F, w.run g sort mode l = .ok w' → OwnsResult w → OwnsResult w' := by
  induction l with
  | nil => intro w w' h ho; cases h; exact ho
  | cons c l ih =>
    intro w w' h ho
    obtain ⟨r, e, h⟩ := bind_ok_inv h
    exact ih _ _ h (owns_step e ho)

/-- After any program the weights are sorted by destination cell. -/
theorem built_step {g : Gels F} {sort : List (Pt F) → List (Pt F)} {mode : Mode} {w : World F} {c : Stmt F}
    {r : Reply × World F} (h : w.step g sort mode c = .ok r) (ho : Built g sort mode w.handle) :
    Built g sort mode r.2.handle := by
  obtain ⟨r, w'⟩ := r
  cases c with
  | setDstGrid x y =>
    obtain ⟨xs, _, h⟩ := bind_ok_inv h
    obtain ⟨ys, _, h⟩ := bind_ok_inv h
    obtain ⟨hh, e, h⟩ := bind_ok_inv h
    cases h
    exact .dst ho e
  | setSrcGrid p x y =>
    obtain ⟨xs, _, h⟩ := bind_ok_inv h
    obtain ⟨ys, _, h⟩ := bind_ok_inv h
    obtain ⟨hh, e, h⟩ := bind_ok_inv h
    cases h
    exact .src ho e
  | computeWeights =>
    simp only [World.step, World.computeWeights] at h
    split at h
    · cases h; exact ho
    · split at h
      · cases h; exact ho
      · obtain ⟨hh, e, h⟩ := bind_ok_inv h
        cases h
        exact .weights ho e
  | apply s => rw [(harmless_step (c := .apply s) trivial h).1]; exact ho
  | create l => rw [(harmless_step (c := .create l) trivial h).1]; exact ho
  | write b k v => rw [(harmless_step (c := .write b k v) trivial h).1]; exact ho

theorem built_run {g : Gels F} {sort : List (Pt F) → List (Pt F)} {mode : Mode} (l : List (Stmt F)) :
    ∀ w w' : World F, w.run g sort mode l = .ok w' → Built g sort mode w.handle → Built g sort mode w'.handle := by
  induction l with
  | nil => intro w w' h ho; cases h; exact ho
  | cons c l ih =>
    intro w w' h ho
    obtain ⟨r, e, h⟩ := bind_ok_inv h
    exact ih _ _ h (built_step e ho)

/-- A program run on a new object. -/
def Runs (g : Gels F) (sort : List (Pt F) → List (Pt F)) (mode : Mode) (mem : Buffers F) (l : List (Stmt F)) (w : World F) :
    Prop :=
  (init .lenient mem >>= fun w0 => w0.run g sort mode l) = .ok w

theorem runs_inv {g : Gels F} {sort : List (Pt F) → List (Pt F)} {mode : Mode} {mem : Buffers F} {l : List (Stmt F)}
    {w : World F} (h : Runs g sort mode mem l w) : OwnsResult w ∧ Built g sort mode w.handle := by
  obtain ⟨w0, e0, h⟩ := bind_ok_inv h
  obtain ⟨hh, e, e0⟩ := bind_ok_inv e0
  cases e0
  exact ⟨owns_run l _ _ h (by intro d hd; cases hd), built_run l _ _ h (.new e)⟩

/-- `apply` with a contiguous source array that is not the result array. -/
theorem apply_arrays {w : World F} (ho : OwnsResult w) (hi : w.hasInterpWeights = true) {d : Arr} (hd : w.dstData = some d)
    {s : Arr} (hs : s.Fits w.mem) (cs : s.Contiguous) (hne : s.buf ≠ d.buf) :
    ∃ b sb, w.mem[d.buf]? = some b ∧ b.length = d.n0 * d.n1 ∧ s.n0 * s.n1 ≤ sb.length ∧
      (∀ i j, i < s.n0 → j < s.n1 → s.at w.mem i j = sb[i * s.n1 + j]?) ∧
      ∀ r, w.handle.apply sb (b.map (· * 0)) = .ok r →
        w.apply s = .ok (.array d, { w with mem := w.mem.set d.buf r }) := by
  obtain ⟨h0, hc, gr, b, _, hb, hl, _, _⟩ := ho d hd
  obtain ⟨sb, hsb, _, hlen, hat⟩ := behind_ok hs cs
  have hk : d.buf < w.mem.length := (List.getElem?_eq_some_iff.mp hb).1
  refine ⟨b, _, hb, hl, hlen, hat, ?_⟩
  intro r hr
  unfold World.apply
  rw [hi]
  simp only [Bool.not_true, Bool.false_eq_true, if_false, hd]
  have hz : timesZero w.mem d = .ok (w.mem.set d.buf (b.map (· * 0))) := by
    unfold timesZero
    rw [vget_eq_ok.mpr hb]
    exact vset_ok hk
  have ha := nativeApply_eq w.handle (b := b.map (· * 0)) hk h0 hsb hne
  rw [hr] at ha
  simp only [hz, bind, Except.bind, ha]
  rfl

/-- Entry `(i, j)` of the result array after the buffer has been replaced. -/
theorem result_at {m : Buffers F} {d : Arr} (h0 : d.off = 0) (hc : d.Contiguous) (hk : d.buf < m.length) (r : List F)
    {i j : Nat} (hi : i < d.n0) (hj : j < d.n1) : d.at (m.set d.buf r) i j = r[i * d.n1 + j]? := by
  rw [at_contiguous hc hi hj, List.getElem?_set_self hk, h0]
  simp

theorem at_set_other (m : Buffers F) (k : Nat) (r : List F) (a : Arr) (h : a.buf ≠ k) (i j : Nat) :
    a.at (m.set k r) i j = a.at m i j := by
  unfold Arr.at
  rw [List.getElem?_set_ne (Ne.symm h)]

/-- **C95**, what holds, for every arithmetic: after any program, `apply` to a contiguous array that is not the result array
itself returns the result array.  Its entry for a cell with weights is the sum of weight times source value, `a[i, j]` being
the value of source cell `i * n1 + j`; for a cell without weights it is the old entry times zero.  No other array, no grid
and no weight changes.  The weights must fit the arrays (C74 says when they may not). -/
theorem C95_apply_partial (g : Gels F) (sort : List (Pt F) → List (Pt F)) (mode : Mode) (mem : Buffers F) (l : List (Stmt F))
    (w : World F) (h : Runs g sort mode mem l w) (hi : w.hasInterpWeights = true) (s : Arr) (hs : s.Fits w.mem)
    (cs : s.Contiguous) (d : Arr) (hd : w.dstData = some d) (hne : s.buf ≠ d.buf)
    (hw : ∀ e ∈ w.handle.weights, e.1 < d.n0 * d.n1 ∧ ∀ p ∈ e.2, p.1 < s.n0 * s.n1) :
    ∃ w', w.apply s = .ok (.array d, w') ∧ w'.handle = w.handle ∧ w'.dstData = some d ∧
      (∀ (i j : Nat) (wts : List (Nat × F)), i < d.n0 → j < d.n1 → (i * d.n1 + j, wts) ∈ w.handle.weights →
        d.at w'.mem i j = some (weightedSum (fun k => (s.at w.mem (k / s.n1) (k % s.n1)).getD 0) wts)) ∧
      (∀ i j : Nat, i < d.n0 → j < d.n1 → (∀ wts, (i * d.n1 + j, wts) ∉ w.handle.weights) →
        d.at w'.mem i j = (d.at w.mem i j).map (· * 0)) ∧
      ∀ a : Arr, a.buf ≠ d.buf → ∀ i j, a.at w'.mem i j = a.at w.mem i j := by
  obtain ⟨ho, hb⟩ := runs_inv h
  obtain ⟨b, sb, hbuf, hlen, hsl, hsat, happ⟩ := apply_arrays ho hi hd hs cs hne
  obtain ⟨h0, hc, -⟩ := ho d hd
  have hk : d.buf < w.mem.length := (List.getElem?_eq_some_iff.mp hbuf).1
  obtain ⟨r, er, hrl, hr1, hr2⟩ := C59_apply g sort mode w.handle hb sb (b.map (· * 0)) fun e he =>
    ⟨by rw [List.length_map, hlen]; exact (hw e he).1, fun p hp => lt_of_lt_of_le ((hw e he).2 p hp) hsl⟩
  refine ⟨_, happ r er, rfl, hd, ?_, ?_, ?_⟩
  · intro i j wts hi' hj hm
    rw [result_at h0 hc hk r hi' hj, hr1 _ _ hm]
    congr 1
    have hn1 : 0 < s.n1 := hs.2.1
    have hfold : ∀ (q : List (Nat × F)) (acc : F), (∀ p ∈ q, p.1 < s.n0 * s.n1) →
        q.foldl (fun acc p => acc + p.2 * sb.getD p.1 0) acc =
        q.foldl (fun acc p => acc + p.2 * (s.at w.mem (p.1 / s.n1) (p.1 % s.n1)).getD 0) acc := by
      intro q
      induction q with
      | nil => intro acc _; rfl
      | cons p q ih =>
        intro acc hq
        have hp := hq p (List.mem_cons_self ..)
        have e : s.at w.mem (p.1 / s.n1) (p.1 % s.n1) = sb[p.1]? := by
          rw [hsat _ _ (Nat.div_lt_of_lt_mul (by rw [Nat.mul_comm]; exact hp)) (Nat.mod_lt _ hn1), Nat.div_add_mod']
        rw [List.foldl_cons, List.foldl_cons, e, ← List.getD_eq_getElem?_getD]
        exact ih _ fun p' hp' => hq p' (List.mem_cons_of_mem _ hp')
    exact hfold wts 0 (hw _ hm).2
  · intro i j hi' hj hm
    rw [result_at h0 hc hk r hi' hj, hr2 _ hm, at_contiguous hc hi' hj, hbuf, h0]
    simp
  · intro a ha i j
    exact at_set_other _ _ _ _ ha i j

/-- **C95**: every call of `apply` that returns an array returns the same one until the destination grid is set again. -/
theorem C95_same_array (g : Gels F) (sort : List (Pt F) → List (Pt F)) (mode : Mode) (w w1 w2 w3 : World F) (s s' d d' : Arr)
    (l : List (Stmt F)) (hl : ∀ c ∈ l, ∀ x y, c ≠ .setDstGrid x y) (h1 : w.apply s = .ok (.array d, w1))
    (h2 : w1.run g sort mode l = .ok w2) (h3 : w2.apply s' = .ok (.array d', w3)) : d' = d := by
  have key : ∀ (l : List (Stmt F)) (w w' : World F), (∀ c ∈ l, ∀ x y, c ≠ .setDstGrid x y) → w.run g sort mode l = .ok w' →
      w'.dstData = w.dstData := by
    intro l
    induction l with
    | nil => intro w w' _ h; cases h; rfl
    | cons c l ih =>
      intro w w' hl h
      obtain ⟨r, e, h⟩ := bind_ok_inv h
      rw [ih r.2 w' (fun c hc => hl c (List.mem_cons_of_mem _ hc)) h]
      obtain ⟨r, v⟩ := r
      cases c with
      | setDstGrid x y => exact absurd rfl (hl _ (List.mem_cons_self ..) x y)
      | setSrcGrid p x y =>
        obtain ⟨xs, _, e⟩ := bind_ok_inv e
        obtain ⟨ys, _, e⟩ := bind_ok_inv e
        obtain ⟨hh, _, e⟩ := bind_ok_inv e
        cases e; rfl
      | computeWeights =>
        simp only [World.step, World.computeWeights] at e
        split at e
        · cases e; rfl
        · split at e
          · cases e; rfl
          · obtain ⟨hh, _, e⟩ := bind_ok_inv e
            cases e; rfl
      | apply s => exact (harmless_step (c := .apply s) trivial e).2.1
      | create l => exact (harmless_step (c := .create l) trivial e).2.1
      | write b k v => exact (harmless_step (c := .write b k v) trivial e).2.1
  rcases apply_inv h1 with ⟨h, _⟩ | ⟨_, _, m, m', hd, hr, _, _, rfl⟩
  · cases h
  · cases hr
    rcases apply_inv h3 with ⟨h, _⟩ | ⟨_, _, m2, m2', hd', hr', _, _, rfl⟩
    · cases h
    · cases hr'
      have := key l _ _ hl h2
      rw [hd'] at this
      have hd2 : some d' = w.dstData := this
      rw [hd] at hd2
      exact Option.some.inj hd2

end

end Sg.Props
