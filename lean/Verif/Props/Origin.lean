import Verif.Proof.FlowShift
import Verif.Props.ConserveInterp
import Verif.Props.FlowInterp
/-
Property C148: the origin of the coordinates does not matter to conservative interpolation and to flow interpolation, whatever the grids are: also where cells are not
convex or overlap, where nodes are closer than the tolerances, and where the calls fail.  `K` is an ordered field, exact.
-/
namespace Sg.Props
open Sg Sg.LinearSolve Sg.Triangulate Sg.QuadIntersect Sg.Conserve Sg.FlowInterp Sg.FindPoint Sg.Spec Sg.Shift Sg.Witness

set_option linter.unusedSectionVars false
variable {K : Type} [Field K] [LinearOrder K] [IsStrictOrderedRing K]

/-! ### Conservative interpolation -/

/-- What the functor handed to `std::sort` answers for the places `i` and `j` (SgTriangulate.h:52-57). -/
def answer (pts : List (Pt K)) (i j : Nat) : Bool :=
  match pts[i]?, pts[j]? with
  | some p, some q => decide (distanceSquareFromCenter (gravityCenter pts) p < distanceSquareFromCenter (gravityCenter pts) q)
  | _, _ => false

/-- The sort arranges the places by what the functor answers, and by nothing else. -/
def ByAnswers (sort : List (Pt K) → List (Pt K)) : Prop :=
  ∃ places : Nat → (Nat → Nat → Bool) → List Nat, ∀ pts, sort pts = (places pts.length (answer pts)).filterMap (pts[·]?)

theorem center_mv (v : Pt K) (pts : List (Pt K)) (h : pts ≠ []) : gravityCenter (pts.map (mv v)) = mv v (gravityCenter pts) := by
  have hn : (pts.length : K) ≠ 0 := Nat.cast_ne_zero.mpr (List.length_pos_iff.mpr h).ne'
  have key : ∀ (n : K) (l : List (Pt K)) (c : Pt K) (k : K), (l.map (mv v)).foldl (fun c p => (c.1 + p.1 / n, c.2 + p.2 / n)) (c.1 + k / n * v.1, c.2 + k / n * v.2) =
      ((l.foldl (fun c p => (c.1 + p.1 / n, c.2 + p.2 / n)) c).1 + (k + l.length) / n * v.1,
        (l.foldl (fun c p => (c.1 + p.1 / n, c.2 + p.2 / n)) c).2 + (k + l.length) / n * v.2) := by
    intro n l
    induction l with
    | nil => intro c k; simp
    | cons p l ih =>
      intro c k
      rw [List.map_cons, List.foldl_cons, List.foldl_cons]
      have e : ((c.1 + k / n * v.1) + (mv v p).1 / n, (c.2 + k / n * v.2) + (mv v p).2 / n) =
          ((c.1 + p.1 / n) + (k + 1) / n * v.1, (c.2 + p.2 / n) + (k + 1) / n * v.2) := by
        simp only [mv, Prod.mk.injEq]
        constructor <;> ring
      have h2 := ih (c.1 + p.1 / n, c.2 + p.2 / n) (k + 1)
      dsimp only at h2 ⊢
      rw [e, h2, List.length_cons]
      push_cast
      simp only [Prod.mk.injEq]
      constructor <;> ring
  have h1 := key pts.length pts (0, 0) 0
  unfold gravityCenter
  rw [List.length_map]
  simp only [zero_div, zero_mul, add_zero, zero_add] at h1
  rw [h1, div_self hn, one_mul, one_mul]
  rfl

theorem answer_mv (v : Pt K) (pts : List (Pt K)) : answer (pts.map (mv v)) = answer pts := by
  funext i j
  unfold answer
  rw [List.getElem?_map, List.getElem?_map]
  cases e : pts[i]? with
  | none => rfl
  | some p =>
    cases e' : pts[j]? with
    | none => rfl
    | some q =>
      have hne : pts ≠ [] := by rintro rfl; simp at e
      simp only [Option.map_some, center_mv v pts hne, distanceSquareFromCenter, mv, add_sub_add_right_eq_sub]
      congr

theorem sort_mv (v : Pt K) (sort : List (Pt K) → List (Pt K)) (h : ByAnswers sort) (l : List (Pt K)) : sort (l.map (mv v)) = (sort l).map (mv v) := by
  obtain ⟨places, hp⟩ := h
  rw [hp, hp, answer_mv, List.length_map, List.map_filterMap]
  refine List.filterMap_congr fun i _ => ?_
  rw [List.getElem?_map]

/-- A sort of this kind. -/
def placeSort (pts : List (Pt K)) : List (Pt K) :=
  (((List.finRange pts.length).insertionSort fun i j : Fin pts.length => answer pts j i = false).map Fin.val).filterMap (pts[·]?)

theorem placeSort_byAnswers : ByAnswers (placeSort : List (Pt K) → List (Pt K)) :=
  ⟨fun n lt => ((List.finRange n).insertionSort fun i j : Fin n => lt j i = false).map Fin.val, fun _ => rfl⟩

/-- It does what `std::sort` is to do. -/
theorem placeSort_ok (pts : List (Pt K)) : IsStdSort pts (placeSort pts) := by
  have ha : ∀ i j : Fin pts.length, answer pts j i = false ↔
      distanceSquareFromCenter (gravityCenter pts) pts[i] ≤ distanceSquareFromCenter (gravityCenter pts) pts[j] := by
    intro i j
    unfold answer
    rw [List.getElem?_eq_getElem j.2, List.getElem?_eq_getElem i.2]
    simp
  have e : placeSort pts = ((List.finRange pts.length).insertionSort fun i j : Fin pts.length => answer pts j i = false).map fun i : Fin pts.length => pts[i] := by
    unfold placeSort
    rw [List.filterMap_map, ← List.filterMap_eq_map]
    refine List.filterMap_congr fun i _ => ?_
    exact List.getElem?_eq_getElem i.2
  rw [e]
  constructor
  · have h1 := (List.perm_insertionSort (fun i j : Fin pts.length => answer pts j i = false) (List.finRange pts.length)).map fun i : Fin pts.length => pts[i]
    refine h1.trans (List.Perm.of_eq ?_)
    refine List.ext_getElem (by simp) fun k h1 h2 => by simp
  · have : Std.Total fun i j : Fin pts.length => answer pts j i = false := ⟨fun i j => by rw [ha, ha]; exact le_total _ _⟩
    have : IsTrans (Fin pts.length) fun i j => answer pts j i = false := ⟨fun i j k h1 h2 => by rw [ha] at h1 h2 ⊢; exact h1.trans h2⟩
    have h2 := List.pairwise_insertionSort (fun i j : Fin pts.length => answer pts j i = false) (List.finRange pts.length)
    rw [List.pairwise_map]
    exact h2.imp fun {i j} h => not_lt.mpr ((ha i j).mp h)

/-- **C148** Any two grids, any object: moving both grids by `v` changes neither the weights nor, if the calls fail, the failure. -/
theorem C148_conservative (v : K × K) (g : Gels K) (sort : List (Pt K) → List (Pt K)) (hsort : ByAnswers sort) (mode : Mode) (o : Interp K) (ddims : Nat × Nat)
    (dx dy : List K) (sdims per : Nat × Nat) (sx sy : List K) :
    (setAndCompute g sort mode o ddims (dx.map (· + v.1)) (dy.map (· + v.2)) sdims per (sx.map (· + v.1)) (sy.map (· + v.2))).map (·.weights) =
      (setAndCompute g sort mode o ddims dx dy sdims per sx sy).map (·.weights) := by
  symm
  refine sim_map (R := fun a b => b.weights = a.weights) ?_ fun a b h => h.symm
  unfold setAndCompute Interp.setDstGrid Interp.setSrcGrid
  simp only [bind_assoc, pure_bind]
  refine sim_bind (makeGrid_mv v ddims dx dy) fun d d' hd => sim_bind (makeGrid_mv v sdims sx sy) fun s s' hs => ?_
  exact compute_mv v g sort (sort_mv v sort hsort) mode { o with dst := none, src := none } hs hd

/-- **C148** The result for any data is the same too. -/
theorem C148_conservative_result (v : K × K) (g : Gels K) (sort : List (Pt K) → List (Pt K)) (hsort : ByAnswers sort) (mode : Mode) (o : Interp K) (ddims : Nat × Nat)
    (dx dy : List K) (sdims per : Nat × Nat) (sx sy src dst : List K) :
    (setAndCompute g sort mode o ddims (dx.map (· + v.1)) (dy.map (· + v.2)) sdims per (sx.map (· + v.1)) (sy.map (· + v.2)) >>= fun o => o.apply src dst) =
      (setAndCompute g sort mode o ddims dx dy sdims per sx sy >>= fun o => o.apply src dst) := by
  have h := C148_conservative v g sort hsort mode o ddims dx dy sdims per sx sy
  have key : ∀ x : Cxx (Interp K), (x >>= fun o => o.apply src dst) = (x.map (·.weights) >>= fun w => ({ src := none, dst := none, weights := w, it := none, it2 := none } : Interp K).apply src dst) := by
    intro x
    cases x <;> rfl
  rw [key, key, h]

/-! ### Flow interpolation -/

/-- A call with the coordinates moved. -/
def movedCall (v : K × K) : FlowCall K → FlowCall K
  | .setSrc n0 n1 xs ys => .setSrc n0 n1 (xs.map (· + v.1)) (ys.map (· + v.2))
  | .setDst n xs ys => .setDst n (xs.map (· + v.1)) (ys.map (· + v.2))
  | .compute => .compute

variable [FloorRing K] [FOps K] [FOpsLaws K]

/-- The coordinates of the nodes of the grid are finite numbers, before and after. -/
def CallInRange (v : K × K) : FlowCall K → Prop
  | .setSrc _ _ xs ys => (∀ c ∈ xs, (-FOps.big ≤ c ∧ c ≤ FOps.big) ∧ -FOps.big ≤ c + v.1 ∧ c + v.1 ≤ FOps.big) ∧
      ∀ c ∈ ys, (-FOps.big ≤ c ∧ c ≤ FOps.big) ∧ -FOps.big ≤ c + v.2 ∧ c + v.2 ≤ FOps.big
  | _ => True

/-- Objects that went through corresponding calls. -/
structure FlowR (v : K × K) (o o' : Flow K) : Prop where
  weights : o'.weights = o.weights
  src : (o.src = none ∧ o'.src = none) ∨ ∃ s s', o.src = some s ∧ o'.src = some s' ∧ MovedSrc v s s'
  dst : (o.dst = none ∧ o'.dst = none) ∨ ∃ s s', o.dst = some s ∧ o'.dst = some s' ∧ MovedDst v s s'

theorem compute_moved {v : K × K} (g : Gels K) (hg : FindPoint.KeepsSizes g) (srt : List K → List K) {o o' : Flow K} (h : FlowR v o o') :
    Sim (FlowR v) (o.computeWeights g srt) (o'.computeWeights g srt) := by
  obtain ⟨src, dst, w⟩ := o
  obtain ⟨src', dst', w'⟩ := o'
  have hw : w' = w := h.weights
  subst hw
  rcases h.dst with ⟨rfl, rfl⟩ | ⟨d, d', rfl, rfl, hd⟩
  · exact sim_error _
  rcases h.src with ⟨rfl, rfl⟩ | ⟨s, s', rfl, rfl, hs⟩
  · unfold Flow.computeWeights
    dsimp only
    rw [hd.numCells]
    split_ifs
    · exact sim_ok h
    · exact sim_error _
  · refine sim_mono (flowCompute_mv g hg srt hs hd w') ?_
    rintro a b ⟨t, rfl, rfl⟩
    exact ⟨rfl, Or.inr ⟨s, s', rfl, rfl, hs⟩, Or.inr ⟨d, d', rfl, rfl, hd⟩⟩

theorem calls_moved (hbig : (0 : K) ≤ FOps.big) {v : K × K} (pert : Nat → Nat → Nat → K) (g : Gels K) (hg : FindPoint.KeepsSizes g) (srt : List K → List K) :
    ∀ (calls : List (FlowCall K)) (o o' : Flow K), FlowR v o o' → (∀ c ∈ calls, CallInRange v c) →
      Sim (FlowR v) (runFlowCalls pert g srt o calls) (runFlowCalls pert g srt o' (calls.map (movedCall v)))
  | [], o, o', h, _ => sim_ok h
  | c :: calls, o, o', h, hr => by
    rw [List.map_cons]
    unfold runFlowCalls
    refine sim_bind (R := FlowR v) ?_ fun a b hab => calls_moved hbig pert g hg srt calls a b hab fun c hc => hr c (List.mem_cons_of_mem _ hc)
    have hc := hr c List.mem_cons_self
    cases c with
    | setSrc n0 n1 xs ys =>
      refine sim_mono (setSrc_mv hbig v o o' (n0, n1) xs ys hc.1 hc.2) ?_
      rintro a b ⟨s, s', rfl, rfl, hs⟩
      exact ⟨h.weights, Or.inr ⟨s, s', rfl, rfl, hs⟩, h.dst⟩
    | setDst n xs ys =>
      refine sim_mono (setDst_mv pert v o o' n xs ys) ?_
      rintro a b ⟨s, s', rfl, rfl, hs⟩
      exact ⟨h.weights, h.src, Or.inr ⟨s, s', rfl, rfl, hs⟩⟩
    | compute => exact compute_moved g hg srt h

/-- **C148** Any calls in any order, with any grids and lines: if all coordinates are moved by `v`, the flows written for any numbers on the edges stay, or the failure
does.  (The numbers of the source grids are in the range of finite numbers, before and after.) -/
theorem C148_flows (hbig : (0 : K) ≤ FOps.big) (v : K × K) (pert : Nat → Nat → Nat → K) (g : Gels K) (hg : FindPoint.KeepsSizes g) (srt : List K → List K) (calls : List (FlowCall K))
    (hr : ∀ c ∈ calls, CallInRange v c) (x y d : List K) :
    (runFlowCalls pert g srt Flow.new (calls.map (movedCall v)) >>= fun o => o.apply x y d) = (runFlowCalls pert g srt Flow.new calls >>= fun o => o.apply x y d) := by
  symm
  refine eq_of_sim (sim_bind (calls_moved hbig pert g hg srt calls Flow.new Flow.new ⟨rfl, Or.inl ⟨rfl, rfl⟩, Or.inl ⟨rfl, rfl⟩⟩ hr) ?_)
  rintro ⟨src, dst, w⟩ ⟨src', dst', w'⟩ h
  have hw : w' = w := h.weights
  subst hw
  refine sim_of_eq ?_
  rcases h.src with ⟨rfl, rfl⟩ | ⟨s, s', rfl, rfl, hs⟩
  · rfl
  · exact (flowApply_mv hs dst dst' w' x y d).symm

/-- Grids with cells that are not convex and overlap each other: weights, and the same ones far from the origin. -/
example : (do
    let o : Interp ℚ := { src := none, dst := none, weights := [], it := none, it2 := none }
    let a ← setAndCompute cramerGels placeSort .keptBuffer o (2, 2) [0, 0, 2, 2] [0, 2, 0, 2] (3, 2) (0, 0) [0, 0, 1, 1 / 2, 3, 3 / 2] [0, 2, 1 / 3, 2, 0, 1]
    let b ← setAndCompute cramerGels placeSort .keptBuffer o (2, 2) ([0, 0, 2, 2].map (· + 1000)) ([0, 2, 0, 2].map (· + -7)) (3, 2) (0, 0)
      ([0, 0, 1, 1 / 2, 3, 3 / 2].map (· + 1000)) ([0, 2, 1 / 3, 2, 0, 1].map (· + -7))
    return (decide (a.weights = b.weights), a.weights.map fun (e : Nat × List (Nat × ℚ)) => e.2.map Prod.fst)) = .ok (true, [[0, 1]]) := by decide +kernel

/-- Calls for a line through two cells that are no parallelograms. -/
def originCalls : List (FlowCall ℚ) := [.setSrc 3 2 [0, 0, 1, 3 / 2, 3, 3] [0, 1, 0, 2, 0, 1], .setDst 2 [1 / 2, 5 / 2] [1 / 2, 1 / 2], .compute]

/-- Its flow, and the same one far from the origin. -/
example : (do
    let a ← runFlowCalls pert3 cramerGels sortReal Flow.new originCalls >>= fun o => o.apply [1, 2, 3, 4] [5, 6, 7] [0]
    let b ← runFlowCalls pert3 cramerGels sortReal Flow.new (originCalls.map (movedCall (1000, -7))) >>= fun o => o.apply [1, 2, 3, 4] [5, 6, 7] [0]
    return (decide (a = b), decide (a = [0]))) = .ok (true, false) := by decide +kernel

example : ∀ c ∈ originCalls, CallInRange (1000, -7) c := by
  have hb : (2000 : ℚ) ≤ FOps.big := by decide +kernel
  simp only [originCalls, CallInRange, List.mem_cons, List.not_mem_nil, or_false, forall_eq_or_imp, forall_eq]
  constructorm* _ ∧ _ <;> first | trivial | linarith

end Sg.Props
