import Verif.Model.QuadScratch
import Verif.Proof.FindPoint
/-
Helper lemmas for C139: programs with the scratch arrays and programs without them agree.
-/
namespace Sg.QuadScratch
open Sg.LinearSolve Sg.Triangulate Sg.QuadIntersect Sg.QuadLine Sg.QuadMemory Sg.FindPoint

set_option linter.unusedSectionVars false
variable {F : Type} [Zero F] [One F] [Add F] [Sub F] [Mul F] [Div F] [Neg F] [LT F] [DecidableLT F]
  [LE F] [DecidableLE F] [DecidableEq F] [NatCast F] [IntCast F] [FOps F]

/-- The arrays have their four and two entries. -/
def Scratch.Sized (sc : Scratch F) : Prop := sc.mat.length = 4 ∧ sc.rhs.length = 2

/-- The first program returns exactly when the second one does, and then the same, with arrays of the right sizes. -/
def Agrees {α : Type} (c : Cxx (α × Scratch F)) (d : Cxx α) : Prop :=
  (∀ a sc, c = .ok (a, sc) → sc.Sized ∧ d = .ok a) ∧ ∀ a, d = .ok a → ∃ sc, c = .ok (a, sc)

theorem agrees_pure {α : Type} (a : α) (sc : Scratch F) (h : sc.Sized) : Agrees (.ok (a, sc)) (.ok a : Cxx α) :=
  ⟨fun a' sc' e => by cases e; exact ⟨h, rfl⟩, fun a' e => by cases e; exact ⟨sc, rfl⟩⟩

theorem agrees_error {α : Type} (e e' : UB) : Agrees (F := F) (.error e) (.error e' : Cxx α) :=
  ⟨fun _ _ h => (by cases h), fun _ h => (by cases h)⟩

theorem agrees_bind {α β : Type} {c : Cxx (α × Scratch F)} {d : Cxx α} {f : α × Scratch F → Cxx (β × Scratch F)} {f' : α → Cxx β}
    (h : Agrees c d) (hf : ∀ a sc, sc.Sized → d = .ok a → Agrees (f (a, sc)) (f' a)) : Agrees (c >>= f) (d >>= f') := by
  cases hc : c with
  | error e =>
    cases hd : d with
    | error e' => exact agrees_error e e'
    | ok a =>
      obtain ⟨sc, hsc⟩ := h.2 a hd
      rw [hsc] at hc
      cases hc
  | ok r =>
    obtain ⟨a, sc⟩ := r
    obtain ⟨h1, h2⟩ := h.1 a sc hc
    rw [h2]
    exact hf a sc h1 h2

/-- The same steps on both sides. -/
theorem agrees_same {α β : Type} {d : Cxx α} {f : α → Cxx (β × Scratch F)} {f' : α → Cxx β}
    (hf : ∀ a, d = .ok a → Agrees (f a) (f' a)) : Agrees (d >>= f) (d >>= f') := by
  cases hd : d with
  | error e => exact agrees_error e e
  | ok a => exact hf a hd

theorem forFrom_bind {σ : Type} (f : Nat → σ → Cxx σ) (i n : Nat) (s : σ) :
    forFrom i (n + 1) s f = f i s >>= fun s' => forFrom (i + 1) n s' f := by
  rw [forFrom]
  cases f i s <;> rfl

theorem agrees_from {σ : Type} (f : Nat → σ × Scratch F → Cxx (σ × Scratch F)) (f' : Nat → σ → Cxx σ)
    (hf : ∀ i s sc, sc.Sized → Agrees (f i (s, sc)) (f' i s)) (n : Nat) : ∀ (i : Nat) (s : σ) (sc : Scratch F), sc.Sized →
    Agrees (forFrom i n (s, sc) f) (forFrom i n s f') := by
  induction n with
  | zero => intro i s sc h; exact agrees_pure s sc h
  | succ n ih =>
    intro i s sc h
    have := agrees_bind (f := fun r => forFrom (i + 1) n r f) (f' := fun s => forFrom (i + 1) n s f') (hf i s sc h) fun s sc h _ => ih (i + 1) s sc h
    rw [forFrom_bind, forFrom_bind]
    exact this

theorem agrees_forN {σ : Type} (f : Nat → σ × Scratch F → Cxx (σ × Scratch F)) (f' : Nat → σ → Cxx σ)
    (hf : ∀ i s sc, sc.Sized → Agrees (f i (s, sc)) (f' i s)) (n : Nat) (s : σ) (sc : Scratch F) (h : sc.Sized) :
    Agrees (forN n (s, sc) f) (forN n s f') := agrees_from f f' hf n 0 s sc h

theorem load_ok_pt {m : Memory F} {p : At} {a : Pt F} (h : loadPt m p.1 p.2 = .ok a) :
    load m p.1 (p.2 * 2 + 0) = .ok a.1 ∧ load m p.1 (p.2 * 2 + 1) = .ok a.2 := by
  unfold loadPt at h
  obtain ⟨x, hx, h⟩ := bind_ok_inv h
  obtain ⟨y, hy, h⟩ := bind_ok_inv h
  cases h
  exact ⟨hx, hy⟩

theorem pt_of_loads {m : Memory F} {p : At} {x y : F} (hx : load m p.1 (p.2 * 2 + 0) = .ok x) (hy : load m p.1 (p.2 * 2 + 1) = .ok y) :
    loadPt m p.1 p.2 = .ok (x, y) := by
  unfold loadPt
  rw [hx, hy]
  rfl

theorem fill_ok {m : Memory F} {sc : Scratch F} (hsc : sc.Sized) {a b c d e f : At} {A B C D E G : Pt F}
    (hA : loadPt m a.1 a.2 = .ok A) (hB : loadPt m b.1 b.2 = .ok B) (hC : loadPt m c.1 c.2 = .ok C)
    (hD : loadPt m d.1 d.2 = .ok D) (hE : loadPt m e.1 e.2 = .ok E) (hG : loadPt m f.1 f.2 = .ok G) :
    fill m sc a b c d e f = .ok { mat := [some (C.1 - D.1), some (E.1 - G.1), some (C.2 - D.2), some (E.2 - G.2)],
                                  rhs := [some (A.1 - B.1), some (A.2 - B.2)] } := by
  obtain ⟨mat, rhs⟩ := sc
  obtain ⟨h1, h2⟩ := hsc
  dsimp only at h1 h2
  obtain ⟨hA0, hA1⟩ := load_ok_pt hA
  obtain ⟨hB0, hB1⟩ := load_ok_pt hB
  obtain ⟨hC0, hC1⟩ := load_ok_pt hC
  obtain ⟨hD0, hD1⟩ := load_ok_pt hD
  obtain ⟨hE0, hE1⟩ := load_ok_pt hE
  obtain ⟨hG0, hG1⟩ := load_ok_pt hG
  match mat, h1, rhs, h2 with
  | [_, _, _, _], _, [_, _], _ =>
    unfold fill forN forFrom forFrom forFrom
    simp only [bind, Except.bind, Nat.zero_add, hA0, hA1, hB0, hB1, hC0, hC1, hD0, hD1, hE0, hE1, hG0, hG1]
    rfl

theorem fill_inv {m : Memory F} {sc sc' : Scratch F} {a b c d e f : At} (h : fill m sc a b c d e f = .ok sc') :
    ∃ A B C D E G, loadPt m a.1 a.2 = .ok A ∧ loadPt m b.1 b.2 = .ok B ∧ loadPt m c.1 c.2 = .ok C ∧
      loadPt m d.1 d.2 = .ok D ∧ loadPt m e.1 e.2 = .ok E ∧ loadPt m f.1 f.2 = .ok G := by
  have key : ∀ j (s s' : Scratch F), (do
      let x ← load m a.1 (a.2 * 2 + j)
      let y ← load m b.1 (b.2 * 2 + j)
      let rhs ← vset s.rhs j (some (x - y))
      let x ← load m c.1 (c.2 * 2 + j)
      let y ← load m d.1 (d.2 * 2 + j)
      let mat ← vset s.mat (2 * j + 0) (some (x - y))
      let x ← load m e.1 (e.2 * 2 + j)
      let y ← load m f.1 (f.2 * 2 + j)
      let mat ← vset mat (2 * j + 1) (some (x - y))
      return ({ mat, rhs } : Scratch F)) = .ok s' →
      (∃ x, load m a.1 (a.2 * 2 + j) = .ok x) ∧ (∃ x, load m b.1 (b.2 * 2 + j) = .ok x) ∧ (∃ x, load m c.1 (c.2 * 2 + j) = .ok x) ∧
      (∃ x, load m d.1 (d.2 * 2 + j) = .ok x) ∧ (∃ x, load m e.1 (e.2 * 2 + j) = .ok x) ∧ ∃ x, load m f.1 (f.2 * 2 + j) = .ok x := by
    intro j s s' h
    obtain ⟨x1, e1, h⟩ := bind_ok_inv h
    obtain ⟨x2, e2, h⟩ := bind_ok_inv h
    obtain ⟨_, -, h⟩ := bind_ok_inv h
    obtain ⟨x3, e3, h⟩ := bind_ok_inv h
    obtain ⟨x4, e4, h⟩ := bind_ok_inv h
    obtain ⟨_, -, h⟩ := bind_ok_inv h
    obtain ⟨x5, e5, h⟩ := bind_ok_inv h
    obtain ⟨x6, e6, h⟩ := bind_ok_inv h
    exact ⟨⟨_, e1⟩, ⟨_, e2⟩, ⟨_, e3⟩, ⟨_, e4⟩, ⟨_, e5⟩, ⟨_, e6⟩⟩
  unfold fill forN at h
  rw [forFrom_bind] at h
  obtain ⟨s1, h1, h⟩ := bind_ok_inv h
  rw [forFrom_bind] at h
  obtain ⟨s2, h2, h⟩ := bind_ok_inv h
  obtain ⟨⟨_, a0⟩, ⟨_, b0⟩, ⟨_, c0⟩, ⟨_, d0⟩, ⟨_, e0⟩, ⟨_, f0⟩⟩ := key _ _ _ h1
  obtain ⟨⟨_, a1⟩, ⟨_, b1⟩, ⟨_, c1⟩, ⟨_, d1⟩, ⟨_, e1⟩, ⟨_, f1⟩⟩ := key _ _ _ h2
  exact ⟨_, _, _, _, _, _, pt_of_loads a0 a1, pt_of_loads b0 b1, pt_of_loads c0 c1, pt_of_loads d0 d1, pt_of_loads e0 e1, pt_of_loads f0 f1⟩

theorem solveS_eq (g : Gels F) (s : Solver F) (a0 a1 a2 a3 b0 b1 : F) :
    solveS g s { mat := [some a0, some a1, some a2, some a3], rhs := [some b0, some b1] } =
      solve2 g s (fun k => match k with | 0 => a0 | 1 => a1 | 2 => a2 | _ => a3) fun k => match k with | 0 => b0 | _ => b1 := rfl

/-- Filling the system and going on, against reading the points first. -/
theorem agrees_fill {α : Type} {m : Memory F} {sc : Scratch F} (hsc : sc.Sized) (a b c d e f : At)
    {k : Scratch F → Cxx (α × Scratch F)} {r : Cxx α}
    (hok : ∀ A B C D E G, loadPt m a.1 a.2 = .ok A → loadPt m b.1 b.2 = .ok B → loadPt m c.1 c.2 = .ok C → loadPt m d.1 d.2 = .ok D →
      loadPt m e.1 e.2 = .ok E → loadPt m f.1 f.2 = .ok G →
      Agrees (k { mat := [some (C.1 - D.1), some (E.1 - G.1), some (C.2 - D.2), some (E.2 - G.2)], rhs := [some (A.1 - B.1), some (A.2 - B.2)] }) r)
    (hr : ∀ x, r = .ok x → ∃ A B C D E G, loadPt m a.1 a.2 = .ok A ∧ loadPt m b.1 b.2 = .ok B ∧ loadPt m c.1 c.2 = .ok C ∧
      loadPt m d.1 d.2 = .ok D ∧ loadPt m e.1 e.2 = .ok E ∧ loadPt m f.1 f.2 = .ok G) : Agrees (fill m sc a b c d e f >>= k) r := by
  have gen : ∀ A B C D E G, loadPt m a.1 a.2 = .ok A → loadPt m b.1 b.2 = .ok B → loadPt m c.1 c.2 = .ok C → loadPt m d.1 d.2 = .ok D →
      loadPt m e.1 e.2 = .ok E → loadPt m f.1 f.2 = .ok G → Agrees (fill m sc a b c d e f >>= k) r := by
    intro A B C D E G h1 h2 h3 h4 h5 h6
    rw [fill_ok hsc h1 h2 h3 h4 h5 h6]
    exact hok A B C D E G h1 h2 h3 h4 h5 h6
  constructor
  · intro x sc' h
    obtain ⟨s1, h1, h2⟩ := bind_ok_inv h
    obtain ⟨A, B, C, D, E, G, h1, h2, h3, h4, h5, h6⟩ := fill_inv h1
    exact (gen A B C D E G h1 h2 h3 h4 h5 h6).1 x sc' h
  · intro x h
    obtain ⟨A, B, C, D, E, G, h1, h2, h3, h4, h5, h6⟩ := hr x h
    exact (gen A B C D E G h1 h2 h3 h4 h5 h6).2 x h

theorem sized4 (a b c d e f : F) : ({ mat := [some a, some b, some c, some d], rhs := [some e, some f] } : Scratch F).Sized := ⟨rfl, rfl⟩

theorem triMat_eq (n0 n1 n2 : Pt F) : (fun k => match k with | 0 => n1.1 - n0.1 | 1 => n2.1 - n0.1 | 2 => n1.2 - n0.2 | _ => n2.2 - n0.2) =
    triMat n0 n1 n2 := by
  funext k
  unfold triMat
  rfl

theorem edgeMat_eq (a0 a1 b0 b1 : Pt F) : (fun k => match k with | 0 => a1.1 - a0.1 | 1 => b0.1 - b1.1 | 2 => a1.2 - a0.2 | _ => b0.2 - b1.2) =
    edgeMat a0 a1 b0 b1 := by
  funext k
  unfold edgeMat
  rfl

theorem triRhs_eq (p n0 : Pt F) : (fun k => match k with | 0 => p.1 - n0.1 | _ => p.2 - n0.2) = triRhs p n0 := by
  funext k
  unfold triRhs
  rfl

theorem tri_agrees (g : Gels F) (m : Memory F) (s : Solver F) (sc : Scratch F) (hsc : sc.Sized) (p n0 n1 n2 : At) :
    Agrees (insideTriangle g m s sc p n0 n1 n2) (do
      let pt ← loadPt m p.1 p.2
      let a ← loadPt m n0.1 n0.2
      let b ← loadPt m n1.1 n1.2
      let c ← loadPt m n2.1 n2.2
      QuadIntersect.checkIfPointIsInsideTriangle g s pt a b c) := by
  unfold insideTriangle
  refine agrees_fill hsc p n0 n1 n0 n2 n0 ?_ ?_
  · intro A B C D E G h1 h2 h3 h4 h5 h6
    rw [h2] at h4 h6
    cases h4
    cases h6
    rw [h1, h2, h3, h5, solveS_eq, triMat_eq B C E, triRhs_eq A B]
    refine agrees_same (f' := fun r => _) fun r _ => ?_
    dsimp only
    split
    · exact agrees_pure _ _ (sized4 ..)
    · exact agrees_same fun x _ => agrees_same fun y _ => agrees_pure _ _ (sized4 ..)
  · intro x h
    obtain ⟨A, h1, h⟩ := bind_ok_inv h
    obtain ⟨B, h2, h⟩ := bind_ok_inv h
    obtain ⟨C, h3, h⟩ := bind_ok_inv h
    obtain ⟨E, h4, h⟩ := bind_ok_inv h
    exact ⟨A, B, C, B, E, B, h1, h2, h3, h2, h4, h2⟩

theorem triL_agrees (g : Gels F) (m : Memory F) (s : Solver F) (sc : Scratch F) (hsc : sc.Sized) (p n0 n1 n2 : At) :
    Agrees (insideTriangleL g m s sc p n0 n1 n2) (do
      let pt ← loadPt m p.1 p.2
      let a ← loadPt m n0.1 n0.2
      let b ← loadPt m n1.1 n1.2
      let c ← loadPt m n2.1 n2.2
      QuadLine.checkIfPointIsInsideTriangle g s pt a b c) := by
  unfold insideTriangleL
  refine agrees_fill hsc p n0 n1 n0 n2 n0 ?_ ?_
  · intro A B C D E G h1 h2 h3 h4 h5 h6
    rw [h2] at h4 h6
    cases h4
    cases h6
    rw [h1, h2, h3, h5, solveS_eq, triMat_eq B C E, triRhs_eq A B]
    refine agrees_same (f' := fun r => _) fun r _ => ?_
    dsimp only
    split
    · exact agrees_pure _ _ (sized4 ..)
    · exact agrees_same fun x _ => agrees_same fun y _ => agrees_pure _ _ (sized4 ..)
  · intro x h
    obtain ⟨A, h1, h⟩ := bind_ok_inv h
    obtain ⟨B, h2, h⟩ := bind_ok_inv h
    obtain ⟨C, h3, h⟩ := bind_ok_inv h
    obtain ⟨E, h4, h⟩ := bind_ok_inv h
    exact ⟨A, B, C, B, E, B, h1, h2, h3, h2, h4, h2⟩

theorem bind_assoc' {α β γ : Type} (c : Cxx α) (f : α → Cxx β) (h : β → Cxx γ) : (c >>= f) >>= h = c >>= fun a => f a >>= h := by
  cases c <;> rfl

theorem cell_agrees (g : Gels F) (m : Memory F) (s : Solver F) (sc : Scratch F) (hsc : sc.Sized) (p : Option Ptr) (i : Nat) (q : Option Ptr) :
    Agrees (isPointInCell g m s sc p i q) (QuadMemory.isPointInCell g m s p i q) := by
  have e : QuadMemory.isPointInCell g m s p i q = (do
      let r ← (do
        let pt ← loadPt m p i
        let a ← loadPt m q 0
        let b ← loadPt m q 1
        let c ← loadPt m q 3
        QuadIntersect.checkIfPointIsInsideTriangle g s pt a b c)
      if r.2 then return (r.1, true)
      else do
        let pt ← loadPt m p i
        let a ← loadPt m q 2
        let b ← loadPt m q 3
        let c ← loadPt m q 1
        QuadIntersect.checkIfPointIsInsideTriangle g r.1 pt a b c) := by
    unfold QuadMemory.isPointInCell
    cases h : loadPt m p i with
    | error e => rfl
    | ok pt =>
      cases loadPt m q 0 with
      | error e => rfl
      | ok a =>
        cases loadPt m q 1 with
        | error e => rfl
        | ok b =>
          cases loadPt m q 3 with
          | error e => rfl
          | ok c => rfl
  rw [e]
  exact agrees_bind (tri_agrees g m s sc hsc (p, i) (q, 0) (q, 1) (q, 3)) fun r sc hsc _ => by
    dsimp only
    split
    · exact agrees_pure _ _ hsc
    · exact tri_agrees g m r.1 sc hsc (p, i) (q, 2) (q, 3) (q, 1)

theorem cellL_agrees (g : Gels F) (m : Memory F) (s : Solver F) (sc : Scratch F) (hsc : sc.Sized) (p : Option Ptr) (i : Nat) (q : Option Ptr) :
    Agrees (isPointInQuad g m s sc p i q) (QuadMemory.isPointInQuad g m s p i q) := by
  have e : QuadMemory.isPointInQuad g m s p i q = (do
      let r ← (do
        let pt ← loadPt m p i
        let a ← loadPt m q 0
        let b ← loadPt m q 1
        let c ← loadPt m q 3
        QuadLine.checkIfPointIsInsideTriangle g s pt a b c)
      if r.2 then return (r.1, true)
      else do
        let pt ← loadPt m p i
        let a ← loadPt m q 2
        let b ← loadPt m q 3
        let c ← loadPt m q 1
        QuadLine.checkIfPointIsInsideTriangle g r.1 pt a b c) := by
    unfold QuadMemory.isPointInQuad
    cases h : loadPt m p i with
    | error e => rfl
    | ok pt =>
      cases loadPt m q 0 with
      | error e => rfl
      | ok a =>
        cases loadPt m q 1 with
        | error e => rfl
        | ok b =>
          cases loadPt m q 3 with
          | error e => rfl
          | ok c => rfl
  rw [e]
  exact agrees_bind (triL_agrees g m s sc hsc (p, i) (q, 0) (q, 1) (q, 3)) fun r sc hsc _ => by
    dsimp only
    split
    · exact agrees_pure _ _ hsc
    · exact triL_agrees g m r.1 sc hsc (p, i) (q, 2) (q, 3) (q, 1)

theorem nodes_agrees (g : Gels F) (grow : Nat → Nat) (m : Memory F) (s : QuadMemory.Isect F) (sc : Scratch F) (hsc : sc.Sized)
    (nodes quad : Option Ptr) :
    Agrees (collectNodesInsideQuad g grow m s sc nodes quad) (s.collectNodesInsideQuad g grow m nodes quad) := by
  unfold collectNodesInsideQuad QuadMemory.Isect.collectNodesInsideQuad
  refine agrees_forN _ _ (fun i s sc hsc => ?_) 4 s sc hsc
  refine agrees_bind (cell_agrees g m s.slvr sc hsc nodes i quad) fun r sc hsc _ => ?_
  dsimp only
  split
  · generalize forN 2 _ _ = c
    cases c with
    | error e => exact agrees_error e e
    | ok s => exact agrees_pure _ _ hsc
  · exact agrees_pure _ _ hsc

theorem edge_agrees (g : Gels F) (grow : Nat → Nat) (m : Memory F) (s : QuadMemory.Isect F) (sc : Scratch F) (hsc : sc.Sized) (i j : Nat) :
    Agrees (collectEdge g grow m s sc i j) (s.collectEdge g grow m i j) := by
  unfold collectEdge QuadMemory.Isect.collectEdge
  refine agrees_fill hsc _ _ _ _ _ _ ?_ ?_
  · intro A B C D E G h1 h2 h3 h4 h5 h6
    dsimp only at h1 h2 h3 h4 h5 h6
    rw [h2] at h4
    rw [h1] at h5
    cases h4
    cases h5
    rw [h2, h3, h1, h6, solveS_eq, edgeMat_eq B C A G, triRhs_eq A B]
    refine agrees_same (f' := fun r => _) fun r _ => ?_
    dsimp only
    split
    · exact agrees_pure _ _ (sized4 ..)
    · refine agrees_same fun x _ => agrees_same fun y _ => ?_
      split
      · rw [h2, h3]
        exact agrees_pure _ _ (sized4 ..)
      · exact agrees_pure _ _ (sized4 ..)
  · intro x h
    obtain ⟨A, h1, h⟩ := bind_ok_inv h
    obtain ⟨B, h2, h⟩ := bind_ok_inv h
    obtain ⟨C, h3, h⟩ := bind_ok_inv h
    obtain ⟨E, h4, h⟩ := bind_ok_inv h
    exact ⟨C, A, B, A, C, E, h3, h1, h2, h1, h3, h4⟩

theorem collect_agrees (g : Gels F) (grow : Nat → Nat) (m : Memory F) (s : QuadMemory.Isect F) (sc : Scratch F) (hsc : sc.Sized) :
    Agrees (collectIntersectPoints g grow m s sc) (s.collectIntersectPoints g grow m) := by
  unfold collectIntersectPoints QuadMemory.Isect.collectIntersectPoints
  refine agrees_bind (nodes_agrees g grow m s sc hsc _ _) fun s sc hsc _ => ?_
  refine agrees_bind (nodes_agrees g grow m s sc hsc _ _) fun s sc hsc _ => ?_
  refine agrees_bind (agrees_forN _ _ (fun i s sc hsc => agrees_forN _ _ (fun j s sc hsc => edge_agrees g grow m s sc hsc i j) 4 s sc hsc) 4 s sc hsc)
    fun s sc hsc _ => ?_
  exact agrees_pure _ _ hsc

theorem endL_agrees (g : Gels F) (m : Memory F) (s : QuadMemory.Line F) (sc : Scratch F) (hsc : sc.Sized) (i : Nat) (lambda : F) :
    Agrees (collectEndL g m s sc i lambda) (s.collectEnd g m i lambda) := by
  unfold collectEndL QuadMemory.Line.collectEnd
  exact agrees_bind (cellL_agrees g m s.slvr sc hsc _ _ _) fun r sc hsc _ => agrees_pure _ _ hsc

theorem edgeL_agrees (g : Gels F) (m : Memory F) (s : QuadMemory.Line F) (sc : Scratch F) (hsc : sc.Sized) (i : Nat) :
    Agrees (collectEdgeL g m s sc i) (s.collectEdge g m i) := by
  unfold collectEdgeL QuadMemory.Line.collectEdge
  refine agrees_fill hsc _ _ _ _ _ _ ?_ ?_
  · intro A B C D E G h1 h2 h3 h4 h5 h6
    dsimp only at h1 h2 h3 h4 h5 h6
    rw [h2] at h4
    rw [h1] at h5
    cases h4
    cases h5
    rw [h2, h3, h1, h6, solveS_eq, edgeMat_eq B C A G, triRhs_eq A B]
    refine agrees_same (f' := fun r => _) fun r _ => ?_
    dsimp only
    split
    · exact agrees_pure _ _ (sized4 ..)
    · refine agrees_same fun x _ => agrees_same fun y _ => ?_
      split
      · exact agrees_pure _ _ (sized4 ..)
      · exact agrees_pure _ _ (sized4 ..)
  · intro x h
    obtain ⟨A, h1, h⟩ := bind_ok_inv h
    obtain ⟨B, h2, h⟩ := bind_ok_inv h
    obtain ⟨C, h3, h⟩ := bind_ok_inv h
    obtain ⟨E, h4, h⟩ := bind_ok_inv h
    exact ⟨C, A, B, A, C, E, h3, h1, h2, h1, h3, h4⟩

theorem collectL_agrees (g : Gels F) (srt : List F → List F) (grow : Nat → Nat) (m : Memory F) (s : QuadMemory.Line F) (sc : Scratch F)
    (hsc : sc.Sized) : Agrees (collectIntersectPointsL g srt grow m s sc) (s.collectIntersectPoints g srt grow m) := by
  unfold collectIntersectPointsL QuadMemory.Line.collectIntersectPoints
  refine agrees_bind (endL_agrees g m s sc hsc _ _) fun s sc hsc _ => ?_
  refine agrees_bind (agrees_forN _ _ (fun i s sc hsc => edgeL_agrees g m s sc hsc i) 4 s sc hsc) fun s sc hsc _ => ?_
  refine agrees_bind (endL_agrees g m s sc hsc _ _) fun s sc hsc _ => ?_
  exact agrees_same fun data _ => agrees_pure _ _ hsc

end Sg.QuadScratch
