import Verif.Model.Triangulate
import Mathlib.Data.Real.Basic
import Mathlib.Data.Rat.Cast.Order
/-
Running the triangulation on rational points gives the same result as on the corresponding real points, so that
concrete runs can be evaluated.  Also: a run without undefined behaviour does not depend on the memory mode.
-/
namespace Sg.Triangulate

/-! ### Rational and real runs -/

/-- A rational point as a real point. -/
def castPt (p : Pt ℚ) : Pt ℝ := ((p.1 : ℝ), (p.2 : ℝ))

def castMem (m : Mem ℚ) : Mem ℝ := { buf := m.buf.map castPt, size := m.size, readable := m.readable }

theorem eps_cast : ((eps : ℚ) : ℝ) = eps := by simp [eps]

theorem cast_lt (a b : ℚ) : ((a : ℝ) < (b : ℝ)) ↔ a < b := Rat.cast_lt

theorem read_cast (m : Mem ℚ) (i : Nat) : (castMem m).read i = (m.read i).map castPt := by
  have e : (castMem m).read i = if i < m.readable then vget (m.buf.map castPt) i else .error .outOfBounds := rfl
  rw [e, Mem.read]
  by_cases h : i < m.readable
  · rw [if_pos h, if_pos h]
    simp only [vget, List.getElem?_map]
    cases m.buf[i]? <;> rfl
  · rw [if_neg h, if_neg h]
    rfl

theorem cross_cast (p q r : Pt ℚ) : cross (castPt p) (castPt q) (castPt r) = ((cross p q r : ℚ) : ℝ) := by
  simp only [cross, castPt]; push_cast; rfl

theorem area_cast (m : Mem ℚ) (i j k : Nat) : (castMem m).area i j k = (m.area i j k).map (fun x : ℚ => (x : ℝ)) := by
  simp only [Mem.area, read_cast, bind, Except.bind, pure, Except.pure]
  cases m.read i <;> cases m.read j <;> cases m.read k <;> simp [Except.map, cross_cast]

theorem dot_cast (m : Mem ℚ) (i j k : Nat) : (castMem m).dot i j k = (m.dot i j k).map (fun x : ℚ => (x : ℝ)) := by
  simp only [Mem.dot, read_cast, bind, Except.bind, pure, Except.pure]
  cases m.read i <;> cases m.read j <;> cases m.read k <;> simp [Except.map, castPt]

theorem extrema_cast (m : Mem ℚ) (i j k : Nat) : (castMem m).extrema i j k = m.extrema i j k := by
  simp only [Mem.extrema, dot_cast, bind, Except.bind, pure, Except.pure, ← eps_cast]
  cases m.dot i j k with
  | error e => rfl
  | ok a =>
    simp only [Except.map, cast_lt]
    split
    · cases m.dot j k i with
      | error e => rfl
      | ok b =>
        simp only [cast_lt]
        split
        · cases m.dot k i j <;> rfl
        · rfl
    · rfl

theorem fabs_cast (x : ℚ) : fabs (x : ℝ) = ((fabs x : ℚ) : ℝ) := by
  simp only [fabs]
  have : ((x : ℝ) < 0) ↔ x < 0 := by rw [← Rat.cast_zero, cast_lt]
  simp only [this]
  split
  · push_cast; rfl
  · rfl

theorem firstLoop_cast (m : Mem ℚ) (k : Nat) : ∀ (i0 i1 i2 : Nat) (a : ℚ),
    (castMem m).firstLoop k i0 i1 i2 (a : ℝ) =
      (m.firstLoop k i0 i1 i2 a).map (fun r => (r.1, r.2.1, r.2.2.1, ((r.2.2.2 : ℚ) : ℝ))) := by
  induction k with
  | zero => intro i0 i1 i2 a; rfl
  | succ k ih =>
    intro i0 i1 i2 a
    simp only [Mem.firstLoop, ← eps_cast, cast_lt]
    split
    · simp only [extrema_cast, bind, Except.bind]
      cases m.extrema i0 i1 i2 with
      | error e => rfl
      | ok e =>
        simp only [area_cast]
        cases m.area e.1 e.2 (i2 + 1) with
        | error e => rfl
        | ok b => simp only [Except.map, fabs_cast]; exact ih _ _ _ _
    · rfl

theorem ccw_cast (m : Mem ℚ) (i j k : Nat) : (castMem m).makeCounterClockwise i j k = m.makeCounterClockwise i j k := by
  simp only [Mem.makeCounterClockwise, area_cast, bind, Except.bind, pure, Except.pure, ← eps_cast]
  cases m.area i j k with
  | error e => rfl
  | ok a => simp only [Except.map, ← Rat.cast_neg, cast_lt]

theorem makeFirstTriangle_cast (m : Mem ℚ) : (castMem m).makeFirstTriangle = m.makeFirstTriangle := by
  have hs : (castMem m).size = m.size := rfl
  simp only [Mem.makeFirstTriangle, hs, area_cast, bind, Except.bind, pure, Except.pure, ← eps_cast]
  split
  · rfl
  · cases m.area 0 1 2 with
    | error e => rfl
    | ok a =>
      simp only [Except.map, fabs_cast, firstLoop_cast]
      cases m.firstLoop (m.size - 2) 0 1 2 (fabs a) with
      | error e => rfl
      | ok r =>
        simp only [Except.map, cast_lt, ccw_cast]

theorem visible_cast (m : Mem ℚ) (i j k : Nat) : (castMem m).isEdgeVisible i j k = m.isEdgeVisible i j k := by
  simp only [Mem.isEdgeVisible, area_cast, bind, Except.bind, pure, Except.pure, ← eps_cast]
  cases m.area i j k with
  | error e => rfl
  | ok a => simp only [Except.map, ← Rat.cast_neg, cast_lt]

theorem scan_cast (m : Mem ℚ) (ip : Nat) (es : List (Nat × Nat)) (w : Work) :
    (castMem m).scan ip es w = m.scan ip es w := by
  induction es generalizing w with
  | nil => rfl
  | cons e es ih =>
    simp only [Mem.scan, visible_cast, bind, Except.bind]
    cases m.isEdgeVisible ip e.1 e.2 with
    | error e => rfl
    | ok b => exact ih _

theorem addPoint_cast (m : Mem ℚ) (ip : Nat) (t : Mesh) : (castMem m).addPoint ip t = m.addPoint ip t := by
  simp only [Mem.addPoint, scan_cast]

theorem keepDistinct_cast (p : Pt ℚ) (l : List (Pt ℚ)) :
    keepDistinct (castPt p) (l.map castPt) = (keepDistinct p l).map castPt := by
  induction l generalizing p with
  | nil => rfl
  | cons q l ih =>
    have hd : distanceSquare (castPt p) (castPt q) = ((distanceSquare p q : ℚ) : ℝ) := by
      simp only [distanceSquare, castPt]; push_cast; rfl
    simp only [keepDistinct, List.map_cons, hd, ← eps_cast, cast_lt]
    split
    · rw [ih, List.map_cons]
    · rw [ih]

theorem memOf_cast (mode : Mode) (l : List (Pt ℚ)) : memOf mode (l.map castPt) = castMem (memOf mode l) := by
  have hr : removeDegenerateSegments (l.map castPt) = (removeDegenerateSegments l).map castPt := by
    cases l with
    | nil => rfl
    | cons p l => simp only [removeDegenerateSegments, List.map_cons, keepDistinct_cast]
  simp only [memOf, castMem, hr, List.length_map, List.map_append, List.map_drop]

theorem build_cast (mode : Mode) (l : List (Pt ℚ)) :
    build mode (l.map castPt) = (build mode l).map (fun o => (castMem o.1, o.2)) := by
  simp only [build, memOf_cast, makeFirstTriangle_cast, addPoint_cast, List.length_map, bind, Except.bind, pure, Except.pure]
  cases (memOf mode l).makeFirstTriangle with
  | error e => rfl
  | ok r =>
    dsimp only
    cases forFrom r.1 (l.length - r.1) r.2 fun ip t => (memOf mode l).addPoint ip t <;> rfl

theorem sum_cast (m : Mem ℚ) (l : List (Nat × Nat × Nat)) : ∀ s : ℚ,
    (l.foldlM (fun s t => do
      let a ← (castMem m).area t.1 t.2.1 t.2.2
      return s + a) (s : ℝ) : Cxx ℝ) =
    (l.foldlM (fun s t => do
      let a ← m.area t.1 t.2.1 t.2.2
      return s + a) s : Cxx ℚ).map (fun x : ℚ => (x : ℝ)) := by
  induction l with
  | nil => intro s; rfl
  | cons t l ih =>
    intro s
    rw [List.foldlM_cons, List.foldlM_cons, area_cast]
    cases m.area t.1 t.2.1 t.2.2 with
    | error e => rfl
    | ok a =>
      have := ih (s + a)
      rw [Rat.cast_add] at this
      exact this

theorem getConvexHullArea_cast (o : Mem ℚ × Mesh) :
    getConvexHullArea (castMem o.1, o.2) = (getConvexHullArea o).map (fun x : ℚ => (x : ℝ)) := by
  have h0 := sum_cast o.1 o.2.tris 0
  rw [Rat.cast_zero] at h0
  unfold getConvexHullArea
  dsimp only
  rw [h0]
  generalize (o.2.tris.foldlM (fun s t => do
      let a ← o.1.area t.1 t.2.1 t.2.2
      return s + a) (0 : ℚ) : Cxx ℚ) = x
  cases x with
  | error e => rfl
  | ok s => simp only [Except.map, bind, Except.bind, pure, Except.pure]; push_cast; rfl

/-- The real run on rational points. -/
theorem hullArea_cast (mode : Mode) (l : List (Pt ℚ)) :
    hullArea mode (l.map castPt) = (hullArea mode l).map (fun x : ℚ => (x : ℝ)) := by
  simp only [hullArea, build_cast, bind, Except.bind]
  cases build mode l with
  | error e => rfl
  | ok o => simp only [Except.map]; exact getConvexHullArea_cast o

theorem gravityCenter_cast (l : List (Pt ℚ)) : gravityCenter (l.map castPt) = castPt (gravityCenter l) := by
  have key : ∀ (n : Nat) (l : List (Pt ℚ)) (c : Pt ℚ),
      (l.map castPt).foldl (fun (c p : Pt ℝ) => (c.1 + p.1 / (n : ℝ), c.2 + p.2 / (n : ℝ))) (castPt c) =
      castPt (l.foldl (fun (c p : Pt ℚ) => (c.1 + p.1 / (n : ℚ), c.2 + p.2 / (n : ℚ))) c) := by
    intro n l
    induction l with
    | nil => intro c; rfl
    | cons p l ih =>
      intro c
      simp only [List.map_cons, List.foldl_cons]
      rw [← ih]
      congr 1
      simp [castPt]
  have := key l.length l (0, 0)
  simp only [gravityCenter, List.length_map]
  rw [← this]
  congr 1
  simp [castPt]

theorem sortLt_cast (l : List (Pt ℚ)) (p q : Pt ℚ) : sortLt (l.map castPt) (castPt p) (castPt q) ↔ sortLt l p q := by
  have hd : ∀ c p : Pt ℚ, distanceSquareFromCenter (castPt c) (castPt p) = ((distanceSquareFromCenter c p : ℚ) : ℝ) := by
    intro c p
    simp only [distanceSquareFromCenter, castPt]; push_cast; rfl
  simp only [sortLt, gravityCenter_cast, hd, cast_lt]

theorem isStdSort_cast {l s : List (Pt ℚ)} (h : IsStdSort l s) : IsStdSort (l.map castPt) (s.map castPt) := by
  refine ⟨h.1.map castPt, ?_⟩
  rw [List.pairwise_map]
  exact h.2.imp fun hpq => by rw [sortLt_cast]; exact hpq

/-! ### Memory modes -/

section
variable {F : Type} [Zero F] [One F] [Add F] [Sub F] [Mul F] [Div F] [Neg F] [LT F] [DecidableLT F] [NatCast F]

/-- Every successful read of the first memory gives the same in the second. -/
def MemLe (m m' : Mem F) : Prop := m.size = m'.size ∧ ∀ i p, m.read i = .ok p → m'.read i = .ok p

theorem bind_ok {α β : Type} {x : Cxx α} {f : α → Cxx β} {b : β} (h : x.bind f = .ok b) : ∃ a, x = .ok a ∧ f a = .ok b := by
  cases x with
  | error e => cases h
  | ok a => exact ⟨a, rfl, h⟩

set_option linter.unusedSectionVars false

theorem area_le {m m' : Mem F} (h : MemLe m m') {i j k : Nat} {a : F} (ha : m.area i j k = .ok a) : m'.area i j k = .ok a := by
  simp only [Mem.area, bind, pure, Except.pure] at ha ⊢
  obtain ⟨p, hp, ha⟩ := bind_ok ha
  obtain ⟨q, hq, ha⟩ := bind_ok ha
  obtain ⟨r, hr, ha⟩ := bind_ok ha
  simp only [h.2 i p hp, h.2 j q hq, h.2 k r hr, Except.bind, ha]

theorem dot_le {m m' : Mem F} (h : MemLe m m') {i j k : Nat} {a : F} (ha : m.dot i j k = .ok a) : m'.dot i j k = .ok a := by
  simp only [Mem.dot, bind, pure, Except.pure] at ha ⊢
  obtain ⟨p, hp, ha⟩ := bind_ok ha
  obtain ⟨q, hq, ha⟩ := bind_ok ha
  obtain ⟨r, hr, ha⟩ := bind_ok ha
  simp only [h.2 i p hp, h.2 j q hq, h.2 k r hr, Except.bind, ha]

theorem extrema_le {m m' : Mem F} (h : MemLe m m') {i j k : Nat} {e : Nat × Nat} (he : m.extrema i j k = .ok e) :
    m'.extrema i j k = .ok e := by
  simp only [Mem.extrema, bind, pure, Except.pure] at he ⊢
  obtain ⟨a, ha, he⟩ := bind_ok he
  rw [dot_le h ha]
  simp only [Except.bind]
  split
  · rename_i hc
    rw [if_pos hc] at he
    obtain ⟨b, hb, he⟩ := bind_ok he
    rw [dot_le h hb]
    simp only
    split
    · rename_i hc'
      rw [if_pos hc'] at he
      obtain ⟨c, hc, he⟩ := bind_ok he
      rw [dot_le h hc]
      exact he
    · rename_i hc'
      rw [if_neg hc'] at he
      exact he
  · rename_i hc
    rw [if_neg hc] at he
    exact he

theorem firstLoop_le {m m' : Mem F} (h : MemLe m m') (k : Nat) : ∀ (i0 i1 i2 : Nat) (a : F) r,
    m.firstLoop k i0 i1 i2 a = .ok r → m'.firstLoop k i0 i1 i2 a = .ok r := by
  induction k with
  | zero => intro i0 i1 i2 a r hr; exact hr
  | succ k ih =>
    intro i0 i1 i2 a r hr
    simp only [Mem.firstLoop] at hr ⊢
    split
    · rename_i hc
      rw [if_pos hc] at hr
      simp only [bind] at hr ⊢
      obtain ⟨e, he, hr⟩ := bind_ok hr
      obtain ⟨b, hb, hr⟩ := bind_ok hr
      rw [extrema_le h he]
      simp only [Except.bind, area_le h hb]
      exact ih _ _ _ _ _ hr
    · rename_i hc
      rw [if_neg hc] at hr
      exact hr

theorem makeFirstTriangle_le {m m' : Mem F} (h : MemLe m m') {r : Nat × Mesh} (hr : m.makeFirstTriangle = .ok r) :
    m'.makeFirstTriangle = .ok r := by
  simp only [Mem.makeFirstTriangle, bind, pure, Except.pure] at hr ⊢
  rw [← h.1]
  split
  · rename_i hc
    rw [if_pos hc] at hr
    exact hr
  · rename_i hc
    rw [if_neg hc] at hr
    obtain ⟨a, ha, hr⟩ := bind_ok hr
    obtain ⟨q, hq, hr⟩ := bind_ok hr
    rw [area_le h ha]
    simp only [Except.bind]
    rw [firstLoop_le h _ _ _ _ _ _ hq]
    simp only at hr ⊢
    split
    · rename_i hc'
      rw [if_pos hc'] at hr
      exact hr
    · rename_i hc'
      rw [if_neg hc'] at hr
      obtain ⟨j, hj, hr⟩ := bind_ok hr
      have hj' : m'.makeCounterClockwise q.1 q.2.1 q.2.2.1 = .ok j := by
        simp only [Mem.makeCounterClockwise, bind, pure, Except.pure] at hj ⊢
        obtain ⟨b, hb, hj⟩ := bind_ok hj
        rw [area_le h hb]
        exact hj
      rw [hj']
      exact hr

theorem scan_le {m m' : Mem F} (h : MemLe m m') (ip : Nat) (es : List (Nat × Nat)) : ∀ (w w' : Work),
    m.scan ip es w = .ok w' → m'.scan ip es w = .ok w' := by
  induction es with
  | nil => intro w w' hw; exact hw
  | cons e es ih =>
    intro w w' hw
    simp only [Mem.scan, bind] at hw ⊢
    obtain ⟨b, hb, hw⟩ := bind_ok hw
    have hb' : m'.isEdgeVisible ip e.1 e.2 = .ok b := by
      simp only [Mem.isEdgeVisible, bind, pure, Except.pure] at hb ⊢
      obtain ⟨a, ha, hb⟩ := bind_ok hb
      rw [area_le h ha]
      exact hb
    rw [hb']
    exact ih _ _ hw

theorem addLoop_le {m m' : Mem F} (h : MemLe m m') (n : Nat) : ∀ (k : Nat) (t t' : Mesh),
    (forFrom k n t fun ip t => m.addPoint ip t) = .ok t' → (forFrom k n t fun ip t => m'.addPoint ip t) = .ok t' := by
  induction n with
  | zero => intro k t t' ht; exact ht
  | succ n ih =>
    intro k t t' ht
    simp only [forFrom] at ht ⊢
    cases hq : m.addPoint k t with
    | error e => rw [hq] at ht; cases ht
    | ok t1 =>
      rw [hq] at ht
      have hq' : m'.addPoint k t = .ok t1 := by
        simp only [Mem.addPoint, bind] at hq ⊢
        obtain ⟨w, hw, hq⟩ := bind_ok hq
        rw [scan_le h _ _ _ _ hw]
        exact hq
      rw [hq']
      exact ih _ _ _ ht

theorem sum_le {m m' : Mem F} (h : MemLe m m') (l : List (Nat × Nat × Nat)) : ∀ s s' : F,
    (l.foldlM (fun s t => do
      let a ← m.area t.1 t.2.1 t.2.2
      return s + a) s : Cxx F) = .ok s' →
    (l.foldlM (fun s t => do
      let a ← m'.area t.1 t.2.1 t.2.2
      return s + a) s : Cxx F) = .ok s' := by
  induction l with
  | nil => intro s s' hs; exact hs
  | cons t l ih =>
    intro s s' hs
    rw [List.foldlM_cons] at hs ⊢
    simp only [bind, pure, Except.pure] at hs ⊢
    obtain ⟨b, hb, hs⟩ := bind_ok hs
    obtain ⟨a, ha, hb⟩ := bind_ok hb
    cases hb
    rw [area_le h ha]
    simp only [Except.bind]
    exact ih _ _ hs

theorem memLe_modes (l : List (Pt F)) (hl : (removeDegenerateSegments l).length ≤ l.length) :
    MemLe (memOf .standard l) (memOf .keptBuffer l) := by
  refine ⟨rfl, ?_⟩
  intro i p hp
  have e1 : (memOf .standard l).read i = if i < (removeDegenerateSegments l).length then
      vget (memOf .keptBuffer l).buf i else .error .outOfBounds := rfl
  have e2 : (memOf .keptBuffer l).read i = if i < l.length then
      vget (memOf .keptBuffer l).buf i else .error .outOfBounds := rfl
  rw [e1] at hp
  rw [e2]
  by_cases hc : i < (removeDegenerateSegments l).length
  · rw [if_pos hc] at hp
    rw [if_pos (by omega)]
    exact hp
  · rw [if_neg hc] at hp
    cases hp

theorem removeDegenerate_length' (l : List (Pt F)) : (removeDegenerateSegments l).length ≤ l.length := by
  have key : ∀ (l : List (Pt F)) (p : Pt F), (keepDistinct p l).length ≤ l.length := by
    intro l
    induction l with
    | nil => intro p; simp [keepDistinct]
    | cons q l ih =>
      intro p
      simp only [keepDistinct]
      split
      · simp only [List.length_cons]; have := ih q; omega
      · simp only [List.length_cons]; have := ih p; omega
  cases l with
  | nil => simp [removeDegenerateSegments]
  | cons p l => simp only [removeDegenerateSegments, List.length_cons]; have := key l p; omega

/-- A run that the C++ standard defines gives the same result when the buffer is kept. -/
theorem hullArea_modes (l : List (Pt F)) (a : F) (h : hullArea .standard l = .ok a) : hullArea .keptBuffer l = .ok a := by
  have hle := memLe_modes l (removeDegenerate_length' l)
  simp only [hullArea, build, bind, pure, Except.pure] at h ⊢
  obtain ⟨o, ho, h⟩ := bind_ok h
  obtain ⟨r, hr, ho⟩ := bind_ok ho
  obtain ⟨t, ht, ho⟩ := bind_ok ho
  cases ho
  rw [makeFirstTriangle_le hle hr]
  simp only [Except.bind]
  rw [addLoop_le hle _ _ _ _ ht]
  simp only [getConvexHullArea, bind, pure, Except.pure] at h ⊢
  obtain ⟨s, hs, h⟩ := bind_ok h
  have := sum_le hle _ _ _ hs
  simp only [bind, pure, Except.pure] at this
  rw [this]
  exact h

end

end Sg.Triangulate
