import Verif.Proof.QuadLine
import Verif.Props.QuadIntersect
import Mathlib.Data.List.Sort
/-
Properties C66, C67, C76 and C77 of the intersection of a quadrilateral and a segment.  `g` is the linear algebra library and
`srt` is `std::sort`.
-/
namespace Sg.Props
open Sg Sg.QuadIntersect Sg.QuadLine Sg.LinearSolve Sg.Triangulate Sg.Spec Sg.Plane

/-! ### Histories -/

section history
variable {F : Type} [Zero F] [One F] [Add F] [Sub F] [Mul F] [Div F] [Neg F] [LT F] [DecidableLT F] [LE F] [DecidableLE F]
  [NatCast F]

/-- What can be done with a line intersector. -/
inductive LineOp (F : Type) where
  | reset
  | setQuad (q : Quad F)
  | setLine (a b : Pt F)
  | collect
  | overlap
  | inTriangle (pt n0 n1 n2 : Pt F)
  | inQuad (pt : Pt F) (q : Quad F)

/-- One operation. -/
def LineOp.exec (g : Gels F) (srt : List F → List F) (s : Line F) : LineOp F → Cxx (Line F)
  | .reset => .ok s.reset
  | .setQuad q => .ok (s.setQuadPoints q)
  | .setLine a b => .ok (s.setLinePoints a b)
  | .collect => do
    let (s, _) ← s.collectIntersectPoints g srt
    return s
  | .overlap => do
    let _ ← s.checkIfOverlap
    return s
  | .inTriangle pt n0 n1 n2 => do
    let (sl, _) ← QuadLine.checkIfPointIsInsideTriangle g s.slvr pt n0 n1 n2
    return { s with slvr := sl }
  | .inQuad pt q => do
    let (sl, _) ← isPointInQuad g s.slvr pt q
    return { s with slvr := sl }

def runLine (g : Gels F) (srt : List F → List F) : Line F → List (LineOp F) → Cxx (Line F)
  | s, [] => .ok s
  | s, o :: os => do
    let s ← o.exec g srt s
    runLine g srt s os

/-- States of a line intersector that was created and used in any way. -/
def LineReached (g : Gels F) (srt : List F → List F) (s : Line F) : Prop := ∃ h, runLine g srt Line.new h = .ok s

theorem lineReached_new (g : Gels F) (srt : List F → List F) : LineReached g srt (Line.new : Line F) := ⟨[], rfl⟩

/-- An invariant of the operations holds of every reached state. -/
theorem lineReached_inv {g : Gels F} {srt : List F → List F} (P : Line F → Prop) (h0 : P Line.new)
    (hstep : ∀ s, P s → ∀ o s', LineOp.exec g srt s o = .ok s' → P s') {s : Line F} (hs : LineReached g srt s) : P s := by
  obtain ⟨os, h⟩ := hs
  have key : ∀ (os : List (LineOp F)) (s0 s : Line F), P s0 → runLine g srt s0 os = .ok s → P s := by
    intro os
    induction os with
    | nil => intro s0 s hp e; cases e; exact hp
    | cons o os ih =>
      intro s0 s hp e
      unfold runLine at e
      cases h1 : o.exec g srt s0 with
      | error x => rw [h1] at e; cases e
      | ok s1 => rw [h1] at e; exact ih s1 s (hstep s0 hp o s1 h1) e
  exact key os _ _ h0 h

/-- What a step that collects starts from. -/
theorem collect_set {g : Gels F} {srt : List F → List F} {s s' : Line F} (h : LineOp.exec g srt s .collect = .ok s') :
    ∃ q bq a b bl, s.quad = some (q, bq) ∧ s.line = some ((a, b), bl) := by
  cases h1 : s.quad with
  | none => simp [LineOp.exec, Line.collectIntersectPoints, h1, bind, Except.bind] at h
  | some q =>
    cases h2 : s.line with
    | none => simp [LineOp.exec, Line.collectIntersectPoints, h1, h2, bind, Except.bind] at h
    | some l => exact ⟨q.1, q.2, l.1.1, l.1.2, l.2, rfl, rfl⟩

/-- The solver stays ready, and a property of single parameters that the collected ones have is kept. -/
theorem lineReached_ready {g : Gels F} (hg : KeepsSizes g) {srt : List F → List F} {s : Line F} (hs : LineReached g srt s)
    (R : F → Prop) (hsrt : ∀ l x, x ∈ srt l → x ∈ l) (hR : ∀ q a b, ∀ x ∈ collectedL g q a b, R x) :
    Ready s.slvr ∧ ∀ x ∈ s.lambdas, R x := by
  refine lineReached_inv (fun s => Ready s.slvr ∧ ∀ x ∈ s.lambdas, R x) ⟨ready_new, by simp [Line.new]⟩ ?_ hs
  rintro s ⟨hr, hx⟩ o s' h
  cases o with
  | reset => cases h; exact ⟨hr, by simp [Line.reset]⟩
  | setQuad q => cases h; exact ⟨hr, hx⟩
  | setLine a b => cases h; exact ⟨hr, hx⟩
  | collect =>
    obtain ⟨q, bq, a, b, bl, h1, h2⟩ := collect_set h
    obtain ⟨sl, r, e⟩ := collectL_ok g hg srt s hr q bq a b bl h1 h2
    simp only [LineOp.exec, e, bind, Except.bind, pure, Except.pure] at h
    cases h
    refine ⟨r, fun x hx' => ?_⟩
    rcases List.mem_append.mp (hsrt _ x hx') with h | h
    · exact hx x h
    · exact hR q a b x h
  | overlap =>
    simp only [LineOp.exec, bind, Except.bind, pure, Except.pure] at h
    split at h
    · cases h
    · cases h; exact ⟨hr, hx⟩
  | inTriangle pt n0 n1 n2 =>
    obtain ⟨sl, e, r⟩ := inTriL_ok g hg s.slvr hr pt n0 n1 n2
    simp only [LineOp.exec, e, bind, Except.bind, pure, Except.pure] at h
    cases h; exact ⟨r, hx⟩
  | inQuad pt q =>
    obtain ⟨sl, e, r⟩ := inQuad_ok g hg s.slvr hr pt q
    simp only [LineOp.exec, e, bind, Except.bind, pure, Except.pure] at h
    cases h; exact ⟨r, hx⟩

end history

/-! ### C66 -/

section sorted
variable {K : Type} [Field K] [LinearOrder K] [IsStrictOrderedRing K]

theorem sortsTo_le {l l' : List K} (h : SortsTo l l') : l'.Pairwise (· ≤ ·) := h.2.imp fun h => not_lt.mp h

/-- **C66** For every quadrilateral (of any shape), every segment, every library that leaves the sizes of its arrays alone
(whatever numbers it returns), and after any history of calls, with `reset` or without: the parameters are in increasing
order, within the tolerance 100 · 2⁻⁵² of [0, 1], and the points returned are those of the segment at the parameters. -/
theorem C66_sorted_on_line (g : Gels K) (hg : ∀ r : GelsArgs K, (g r).a.length = r.a.length ∧ (g r).b.length = r.b.length)
    (srt : List K → List K) (hsrt : ∀ l, SortsTo l (srt l)) (s : Line K) (hs : LineReached g srt s) (q : Quad K) (a b : K × K) :
    ∃ s' pts, ((s.setQuadPoints q).setLinePoints a b).collectIntersectPoints g srt = .ok (s', pts) ∧
      s'.lambdas.Pairwise (· ≤ ·) ∧
      (∀ t ∈ s'.lambdas, -(100 / 2 ^ 52) ≤ t ∧ t ≤ 1 + 100 / 2 ^ 52) ∧
      pts = s'.lambdas.map fun t => (a.1 + t * (b.1 - a.1), a.2 + t * (b.2 - a.2)) := by
  have et : (ltol : K) = 100 / 2 ^ 52 := by simp only [ltol]; norm_num
  have hmem : ∀ l x, x ∈ srt l → x ∈ l := fun l x hx => (hsrt l).1.mem_iff.mp hx
  obtain ⟨hr, hx⟩ := lineReached_ready hg hs (fun x => -ltol ≤ x ∧ x ≤ 1 + ltol) hmem
    (fun q a b x h => collectedL_range g q a b h)
  obtain ⟨sl, _, e⟩ := collectL_ok g hg srt ((s.setQuadPoints q).setLinePoints a b) hr q _ a b _ rfl rfl
  refine ⟨_, _, e, sortsTo_le (hsrt _), ?_, rfl⟩
  intro t ht
  rw [← et]
  rcases List.mem_append.mp (hmem _ t ht) with h | h
  · exact hx t h
  · exact collectedL_range g q a b h

end sorted

/-! ### C67 -/

theorem line_fresh {g : Gels ℝ} (hg : GelsContract g) {srt : List ℝ → List ℝ} (hsrt : ∀ l, SortsTo l (srt l)) {s : Line ℝ}
    (hs : LineReached g srt s) (q : Quad ℝ) (a b : P2) :
    ∃ s', ((s.setQuadPoints q).setLinePoints a b).collectIntersectPoints g srt =
      .ok (s', (srt (s.lambdas ++ collectedL g q a b)).map (linePoint a b)) ∧
      s'.lambdas = srt (s.lambdas ++ collectedL g q a b) := by
  have hmem : ∀ l x, x ∈ srt l → x ∈ l := fun l x hx => (hsrt l).1.mem_iff.mp hx
  obtain ⟨hr, -⟩ := lineReached_ready (keepsSizes hg) hs (fun _ => True) hmem (fun _ _ _ _ _ => trivial)
  obtain ⟨sl, _, e⟩ := collectL_ok g (keepsSizes hg) srt ((s.setQuadPoints q).setLinePoints a b) hr q _ a b _ rfl rfl
  exact ⟨_, e, rfl⟩

/-- **C67** For a convex quadrilateral of either orientation and a segment (which may have length zero) such that no
decision is closer than the tolerance, after `reset` or with a new object: the part of the segment inside the quadrilateral
is the set of parameters between the first and the last one returned, and there are none if and only if the segment misses the
quadrilateral. -/
theorem C67_clip (g : Gels ℝ) (hg : GelsContract g) (srt : List ℝ → List ℝ) (hsrt : ∀ l, SortsTo l (srt l)) (s : Line ℝ)
    (hs : LineReached g srt s) (hempty : s.lambdas = []) (q : Quad ℝ) (hq : ConvexQuad q) (a b : ℝ × ℝ)
    (hc : ClearLine q a b) :
    ∃ s' pts, ((s.setQuadPoints q).setLinePoints a b).collectIntersectPoints g srt = .ok (s', pts) ∧
      insideParams q a b = {t | ∃ lo hi, s'.lambdas.head? = some lo ∧ s'.lambdas.getLast? = some hi ∧ lo ≤ t ∧ t ≤ hi} ∧
      (pts = [] ↔ ∀ x ∈ segment ℝ a b, x ∉ quadRegion q) := by
  obtain ⟨s', e, hl⟩ := line_fresh hg hsrt hs q a b
  rw [hempty, List.nil_append] at e hl
  have hin := sorted_inside hg hq hc (hsrt (collectedL g q a b)).1 (sortsTo_le (hsrt _))
  refine ⟨s', _, e, by rw [hl]; exact hin, ?_⟩
  rw [List.map_eq_nil_iff]
  constructor
  · intro h0 x hx hr
    obtain ⟨t, t0, t1, rfl⟩ := mem_segment_iff.mp hx
    have : t ∈ insideParams q a b := ⟨t0, t1, hr⟩
    rw [hin, h0] at this
    obtain ⟨lo, hi, h, _⟩ := this
    cases h
  · intro h0
    by_contra hne
    obtain ⟨t, ht⟩ := List.exists_mem_of_ne_nil _ hne
    obtain ⟨h1, h2, h3⟩ := collectedL_inside hg hq hc t ((hsrt _).1.mem_iff.mp ht)
    exact h0 _ (mem_segment_iff.mpr ⟨t, h1, h2, rfl⟩) h3

/-- **C67** Without any assumption about the tolerance, and after any history: no part of the segment inside a convex
quadrilateral is beyond the first or the last point returned. -/
theorem C67_nothing_lost (g : Gels ℝ) (hg : GelsContract g) (srt : List ℝ → List ℝ) (hsrt : ∀ l, SortsTo l (srt l)) (s : Line ℝ)
    (hs : LineReached g srt s) (q : Quad ℝ) (hq : ConvexQuad q) (a b : ℝ × ℝ) :
    ∃ s' pts, ((s.setQuadPoints q).setLinePoints a b).collectIntersectPoints g srt = .ok (s', pts) ∧
      ∀ t ∈ insideParams q a b, ∃ lo hi, s'.lambdas.head? = some lo ∧ s'.lambdas.getLast? = some hi ∧ lo ≤ t ∧ t ≤ hi := by
  obtain ⟨s', e, hl⟩ := line_fresh hg hsrt hs q a b
  refine ⟨s', _, e, fun t ht => ?_⟩
  rw [hl]
  exact sorted_covers hg hq (fun t ht => (hsrt _).1.mem_iff.mpr (List.mem_append_right _ ht)) (sortsTo_le (hsrt _)) ht

/-- **C67** `reset` gives a state without parameters, after any history. -/
theorem C67_reset (g : Gels ℝ) (srt : List ℝ → List ℝ) (s : Line ℝ) (hs : LineReached g srt s) :
    LineReached g srt s.reset ∧ s.reset.lambdas = [] := by
  refine ⟨?_, rfl⟩
  obtain ⟨os, h⟩ := hs
  refine ⟨os ++ [.reset], ?_⟩
  have key : ∀ (os : List (LineOp ℝ)) (s0 : Line ℝ), runLine g srt s0 os = .ok s →
      runLine g srt s0 (os ++ [.reset]) = .ok s.reset := by
    intro os
    induction os with
    | nil => intro s0 e; cases e; rfl
    | cons o os ih =>
      intro s0 e
      simp only [runLine, List.cons_append, bind, Except.bind] at e ⊢
      cases h1 : o.exec g srt s0 with
      | error x => rw [h1] at e; cases e
      | ok s1 => rw [h1] at e; exact ih s1 e
  exact key os _ h

/-! ### A segment and a quadrilateral that meet the hypotheses -/

theorem lineGap {m k : ℤ} {u : ℝ} (hm : m ≠ 0) (hb : |m| ≤ 999999999999) (hu : u * m = k) (hneg : u < 0) : u < -lineTol := by
  have := frac_gap hm hb hu hneg
  have h : lineTol < 1 / 1000000000000 := by unfold lineTol; norm_num
  linarith

/-- A quadrilateral and a segment with integer coordinates that are not far apart are clear of each other. -/
theorem clearLine_near {z : Fin 4 → ℤ × ℤ} (hbd : ∀ i j, |(z j).1 - (z i).1| ≤ 700000 ∧ |(z j).2 - (z i).2| ≤ 700000) (a b : ℤ × ℤ)
    (hab : |b.1 - a.1| ≤ 700000 ∧ |b.2 - a.2| ≤ 700000) (hne : (∀ i, z i ≠ z (i + 1)) ∨ a ≠ b) :
    ClearLine (zquad z) (a.1, a.2) (b.1, b.2) := by
  have hcb : ∀ i j k, |zcross (z i) (z j) (z k)| ≤ 999999999999 := fun i j k =>
    abs_cross_le (hbd i j).1 (hbd i k).2 (hbd i j).2 (hbd i k).1
  have hsides : ∀ {c d e p : ℤ × ℤ}, |zcross c d e| ≤ 999999999999 →
      LineClearOfSides ((c.1 : ℝ), (c.2 : ℝ)) (d.1, d.2) (e.1, e.2) (p.1, p.2) := by
    intro c d e p h2 hne u v w hsum hp
    have h1 := zcross_ne hne
    have hx : (p.1 : ℝ) = u * c.1 + v * d.1 + w * e.1 := congrArg Prod.fst hp
    have hy : (p.2 : ℝ) = u * c.2 + v * d.2 + w * e.2 := congrArg Prod.snd hp
    have hu : u = 1 - v - w := by linarith
    have key : ∀ (x : ℝ) (k : ℤ), x * zcross c d e = k → 0 ≤ x ∨ x < -lineTol := by
      intro x k hk
      rcases lt_or_ge x 0 with h | h
      · exact Or.inr (lineGap h1 h2 hk h)
      · exact Or.inl h
    refine ⟨key u (zcross p d e) ?_, key v (zcross c p e) ?_, key w (zcross c d p) ?_⟩ <;>
    · simp only [zcross]; push_cast; rw [hx, hy, hu]; ring
  refine ⟨⟨hsides (hcb _ _ _), hsides (hcb _ _ _)⟩, ⟨hsides (hcb _ _ _), hsides (hcb _ _ _)⟩, ?_, ?_⟩
  swap
  · rintro i ⟨h1, h2⟩
    simp only [zquad, Prod.mk.injEq, Int.cast_inj] at h1 h2
    rcases hne with h | h
    · exact h i (Prod.ext h1.1 h1.2)
    · exact h (Prod.ext h2.1 h2.2)
  intro i hdet s t heq
  have hx : ((z i).1 : ℝ) + s * ((z (i + 1)).1 - (z i).1) = a.1 + t * (b.1 - a.1) := congrArg Prod.fst heq
  have hy : ((z i).2 : ℝ) + s * ((z (i + 1)).2 - (z i).2) = a.2 + t * (b.2 - a.2) := congrArg Prod.snd heq
  set m : ℤ := ((z (i + 1)).1 - (z i).1) * (b.2 - a.2) - ((z (i + 1)).2 - (z i).2) * (b.1 - a.1) with hmdef
  have hm : m ≠ 0 := by
    intro h0
    apply hdet
    have : (m : ℝ) = 0 := by exact_mod_cast h0
    rw [hmdef] at this
    push_cast at this
    exact this
  have hmb : |m| ≤ 999999999999 := abs_cross_le (hbd _ _).1 hab.2 (hbd _ _).2 hab.1
  have es : s * m = (((a.1 - (z i).1) * (b.2 - a.2) - (a.2 - (z i).2) * (b.1 - a.1) : ℤ) : ℝ) := by
    rw [hmdef]; push_cast
    linear_combination (b.2 - a.2 : ℝ) * hx - (b.1 - a.1 : ℝ) * hy
  have et : t * m = (((a.1 - (z i).1) * ((z (i + 1)).2 - (z i).2) - (a.2 - (z i).2) * ((z (i + 1)).1 - (z i).1) : ℤ) : ℝ) := by
    rw [hmdef]; push_cast
    linear_combination ((z (i + 1)).2 - (z i).2 : ℝ) * hx - ((z (i + 1)).1 - (z i).1 : ℝ) * hy
  have key : ∀ (x : ℝ) (k : ℤ), x * m = k → (0 ≤ x ∧ x ≤ 1) ∨ ClearlyOff x := by
    intro x k hk
    rcases lt_or_ge x 0 with h | h
    · exact Or.inr (Or.inl (lineGap hm hmb hk h))
    · rcases lt_or_ge 1 x with h1 | h1
      · have := lineGap (m := m) (k := m - k) (u := 1 - x) hm hmb (by push_cast; linarith) (by linarith)
        exact Or.inr (Or.inr (by linarith))
      · exact Or.inl ⟨h, h1⟩
  rcases key s _ es with ⟨s0, s1⟩ | h
  · rcases key t _ et with ⟨t0, t1⟩ | h
    · exact Or.inl ⟨s0, s1, t0, t1⟩
    · exact Or.inr (Or.inr h)
  · exact Or.inr (Or.inl h)

/-- A quadrilateral and a segment with small integer coordinates are clear of each other. -/
theorem clearLine_int {z : Fin 4 → ℤ × ℤ} (_hz : ZConvex z) (hs : ZSmall z) (a b : ℤ × ℤ)
    (ha : 0 ≤ a.1 ∧ a.1 ≤ 1000 ∧ 0 ≤ a.2 ∧ a.2 ≤ 1000) (hb : 0 ≤ b.1 ∧ b.1 ≤ 1000 ∧ 0 ≤ b.2 ∧ b.2 ≤ 1000)
    (hne : (∀ i, z i ≠ z (i + 1)) ∨ a ≠ b) :
    ClearLine (zquad z) (a.1, a.2) (b.1, b.2) := by
  refine clearLine_near (fun i j => ?_) a b ?_ hne
  · have := hs i; have := hs j
    constructor <;> (rw [abs_le]; omega)
  · constructor <;> (rw [abs_le]; omega)

/-- Sorting as an example of `std::sort`. -/
def sortReal {K : Type} [LinearOrder K] (l : List K) : List K := l.insertionSort (· ≤ ·)

theorem sortReal_ok {K : Type} [LinearOrder K] (l : List K) : SortsTo l (sortReal l) :=
  ⟨List.perm_insertionSort _ _, (List.pairwise_insertionSort (· ≤ ·) l).imp fun h => not_lt.mpr h⟩

/-- A segment through the diamond, from outside to outside: the hypotheses of C67 hold and a point is returned. -/
example : ∃ s' pts, (((Line.new : Line ℝ).setQuadPoints (zquad zDiamond)).setLinePoints (0, 1) (7, 4)).collectIntersectPoints refGels
    sortReal = .ok (s', pts) ∧ pts ≠ [] := by
  obtain ⟨s', pts, e, -, h⟩ := C67_clip refGels refGels_contract sortReal sortReal_ok Line.new (lineReached_new _ _) rfl
    (zquad zDiamond) (zquad_convex (by decide)) (0, 1) (7, 4)
    (by simpa using clearLine_int (z := zDiamond) (by decide) (by decide) (0, 1) (7, 4) (by decide) (by decide) (by decide))
  refine ⟨s', pts, e, fun h0 => ?_⟩
  have hmem : ((7 / 2, 5 / 2) : ℝ × ℝ) ∈ segment ℝ ((0, 1) : ℝ × ℝ) (7, 4) :=
    ⟨1 / 2, 1 / 2, by norm_num, by norm_num, by norm_num, by ext <;> simp <;> norm_num⟩
  refine h.mp h0 _ hmem ?_
  have hd : ∀ i, zquad zDiamond i ∈ quadRegion (zquad zDiamond) := fun i => mem_region _ i
  have hc : Convex ℝ (quadRegion (zquad zDiamond)) := convex_convexHull ℝ _
  -- the point is a mean of points of two edges
  have h1 : ((3, 5 / 2) : ℝ × ℝ) ∈ quadRegion (zquad zDiamond) := by
    have := hc (hd 0) (hd 2) (a := 7 / 12) (b := 5 / 12) (by norm_num) (by norm_num) (by norm_num)
    convert this using 1
    ext <;> simp [zquad, zDiamond] <;> norm_num
  have h2 : ((4, 5 / 2) : ℝ × ℝ) ∈ quadRegion (zquad zDiamond) := by
    have h3 := hc (hd 0) (hd 3) (a := 2 / 3) (b := 1 / 3) (by norm_num) (by norm_num) (by norm_num)
    have h4 := hc (hd 2) (hd 3) (a := 2 / 3) (b := 1 / 3) (by norm_num) (by norm_num) (by norm_num)
    have := hc h3 h4 (a := 5 / 8) (b := 3 / 8) (by norm_num) (by norm_num) (by norm_num)
    convert this using 1
    ext <;> simp [zquad, zDiamond] <;> norm_num
  have := hc h1 h2 (a := 1 / 2) (b := 1 / 2) (by norm_num) (by norm_num) (by norm_num)
  convert this using 1
  ext <;> simp <;> norm_num

/-! ### C77 -/

/-- **C77** (partial): for every arithmetic and every history, after `reset` a segment and a quadrilateral give exactly the
points they give with a new object.  Missing: without `reset`, which the C interface does not offer, the parameters found
before remain (`C77_reuse_refuted`). -/
theorem C77_reuse_partial {F : Type} [Zero F] [One F] [Add F] [Sub F] [Mul F] [Div F] [Neg F] [LT F] [DecidableLT F] [LE F]
    [DecidableLE F] [NatCast F] (g : Gels F)
    (hg : ∀ r : GelsArgs F, (g r).a.length = r.a.length ∧ (g r).b.length = r.b.length) (srt : List F → List F)
    (hsrt : ∀ l x, x ∈ srt l → x ∈ l) (s : Line F) (hs : LineReached g srt s) (q : Quad F) (a b : F × F) :
    ∃ s1 s2 pts, (((Line.new : Line F).setQuadPoints q).setLinePoints a b).collectIntersectPoints g srt = .ok (s1, pts) ∧
      ((s.reset.setQuadPoints q).setLinePoints a b).collectIntersectPoints g srt = .ok (s2, pts) ∧ s1.lambdas = s2.lambdas := by
  obtain ⟨hr, -⟩ := lineReached_ready hg hs (fun _ => True) hsrt (fun _ _ _ _ _ => trivial)
  obtain ⟨sl, -, e⟩ := collectL_ok g hg srt (((Line.new : Line F).setQuadPoints q).setLinePoints a b) ready_new q _ a b _ rfl rfl
  obtain ⟨sl', -, e'⟩ := collectL_ok g hg srt ((s.reset.setQuadPoints q).setLinePoints a b) hr q _ a b _ rfl rfl
  exact ⟨_, _, _, e, e', rfl⟩

/-- **C77** does not hold without `reset`, which the C interface does not offer.  After a segment inside a first square, the segment
inside a second square is clipped as if it were wholly inside, although its first half is not. -/
theorem C77_reuse_refuted (g : Gels ℝ) (hg : GelsContract g) (srt : List ℝ → List ℝ) (hsrt : ∀ l, SortsTo l (srt l)) :
    ∃ (q q' : Quad ℝ) (a b a' b' : ℝ × ℝ), ConvexQuad q ∧ ConvexQuad q' ∧ ClearLine q a b ∧ ClearLine q' a' b' ∧
      ∃ s1 pts1, (((Line.new : Line ℝ).setQuadPoints q).setLinePoints a b).collectIntersectPoints g srt = .ok (s1, pts1) ∧
      ∃ s2 pts2, ((s1.setQuadPoints q').setLinePoints a' b').collectIntersectPoints g srt = .ok (s2, pts2) ∧
        s2.lambdas.head? = some 0 ∧ 0 ∉ insideParams q' a' b' := by
  let z1 : Fin 4 → ℤ × ℤ := ![(0, 0), (4, 0), (4, 4), (0, 4)]
  let z2 : Fin 4 → ℤ × ℤ := ![(2, 0), (4, 0), (4, 4), (2, 4)]
  have c1 : ZConvex z1 := by decide
  have c2 : ZConvex z2 := by decide
  have k1 : ClearLine (zquad z1) ((1, 1) : ℝ × ℝ) (3, 1) := by
    simpa using clearLine_int c1 (by decide) (1, 1) (3, 1) (by decide) (by decide) (by decide)
  have k2 : ClearLine (zquad z2) ((1, 1) : ℝ × ℝ) (3, 1) := by
    simpa using clearLine_int c2 (by decide) (1, 1) (3, 1) (by decide) (by decide) (by decide)
  refine ⟨zquad z1, zquad z2, (1, 1), (3, 1), (1, 1), (3, 1), zquad_convex c1, zquad_convex c2, k1, k2, ?_⟩
  obtain ⟨sl, hr, e⟩ := collectL_ok g (keepsSizes hg) srt (((Line.new : Line ℝ).setQuadPoints (zquad z1)).setLinePoints (1, 1) (3, 1))
    ready_new (zquad z1) _ _ _ _ rfl rfl
  refine ⟨_, _, e, ?_⟩
  set s1 : Line ℝ := { ((Line.new : Line ℝ).setQuadPoints (zquad z1)).setLinePoints (1, 1) (3, 1) with
        slvr := sl
        lambdas := srt ([] ++ collectedL g (zquad z1) (1, 1) (3, 1))
        points := (srt ([] ++ collectedL g (zquad z1) (1, 1) (3, 1))).map (linePoint (1, 1) (3, 1)) } with hs1
  obtain ⟨sl', hr', e'⟩ := collectL_ok g (keepsSizes hg) srt ((s1.setQuadPoints (zquad z2)).setLinePoints (1, 1) (3, 1))
    hr (zquad z2) _ _ _ _ rfl rfl
  have hin := collectedL_inside hg (zquad_convex c1) k1
  have hin2 := collectedL_inside hg (zquad_convex c2) k2
  -- zero is among the parameters, and no parameter is negative
  have h0 : (0 : ℝ) ∈ collectedL g (zquad z1) (1, 1) (3, 1) := by
    rw [mem_collectedL]
    refine Or.inl ⟨rfl, inQuad_of_mem hg (zquad_convex c1) ?_⟩
    have hd : ∀ i, zquad z1 i ∈ quadRegion (zquad z1) := fun i => mem_region _ i
    have hcv : Convex ℝ (quadRegion (zquad z1)) := convex_convexHull ℝ _
    have := hcv (hd 0) (hd 2) (a := 3 / 4) (b := 1 / 4) (by norm_num) (by norm_num)
      (by norm_num)
    convert this using 1
    ext <;> simp [zquad, z1]
  refine ⟨_, _, e', ?_, ?_⟩
  · show (srt (s1.lambdas ++ collectedL g (zquad z2) (1, 1) (3, 1))).head? = some 0
    set l := srt (s1.lambdas ++ collectedL g (zquad z2) (1, 1) (3, 1)) with hl
    have hmem : ∀ t, t ∈ l ↔ t ∈ s1.lambdas ++ collectedL g (zquad z2) (1, 1) (3, 1) := fun t => (hsrt _).1.mem_iff
    have hmem1 : ∀ t, t ∈ s1.lambdas ↔ t ∈ collectedL g (zquad z1) (1, 1) (3, 1) := fun t => (hsrt _).1.mem_iff
    have hz : (0 : ℝ) ∈ l := (hmem 0).mpr (List.mem_append_left _ ((hmem1 0).mpr h0))
    have hpos : ∀ t ∈ l, 0 ≤ t := by
      intro t ht
      rcases List.mem_append.mp ((hmem t).mp ht) with h | h
      · exact (hin t ((hmem1 t).mp h)).1
      · exact (hin2 t h).1
    have hne : l ≠ [] := List.ne_nil_of_mem hz
    have hx := List.head?_eq_some_head hne
    have hy := List.getLast?_eq_some_getLast hne
    obtain ⟨m1, _, hb⟩ := sorted_ends (sortsTo_le (hsrt _)) hx hy
    rw [hx]
    exact congrArg some (le_antisymm (hb 0 hz).1 (hpos _ m1))
  · rintro ⟨_, _, h⟩
    obtain ⟨i, hi⟩ := (hull_between h).1.1
    fin_cases i <;> simp [zquad, z2] at hi

/-! ### C76 -/

section box
variable {K : Type} [Field K] [LinearOrder K]

/-- **C76** The box test compares the bounding boxes: it succeeds if and only if on each axis some coordinates of the
quadrilateral and the segment reach each other from both sides. -/
theorem C76_box_exact (s : Line K) (q : Quad K) (a b : K × K) :
    ((s.setQuadPoints q).setLinePoints a b).checkIfOverlap = .ok true ↔
      ((∃ i, min a.1 b.1 ≤ (q i).1) ∧ ∃ i, (q i).1 ≤ max a.1 b.1) ∧
      ((∃ i, min a.2 b.2 ≤ (q i).2) ∧ ∃ i, (q i).2 ≤ max a.2 b.2) := by
  have key : ∀ (f : Fin 4 → K) (x y : K), (stdMax (quadMin f) (stdMin y x) ≤ stdMin (quadMax f) (stdMax y x)) ↔
      ((∃ i, min x y ≤ f i) ∧ ∃ i, f i ≤ max x y) := by
    intro f x y
    have h0 : quadMin f ≤ f 0 := (quadMin_le_iff f _).mpr ⟨0, le_rfl⟩
    have h1 : f 0 ≤ quadMax f := (le_quadMax_iff f _).mpr ⟨0, le_rfl⟩
    rw [stdMax_eq, stdMin_eq, stdMin_eq, stdMax_eq, max_le_iff, le_min_iff, le_min_iff, min_comm y x, max_comm y x,
      quadMin_le_iff f (max x y), le_quadMax_iff f (min x y)]
    have h2 : min x y ≤ max x y := min_le_max
    constructor
    · rintro ⟨⟨_, h⟩, h', _⟩; exact ⟨h', h⟩
    · rintro ⟨h, h'⟩; exact ⟨⟨h0.trans h1, h'⟩, h, h2⟩
  simp only [Line.checkIfOverlap, Line.setLinePoints, Line.setQuadPoints, quadBox, lineBox, Except.ok.injEq,
    Bool.and_eq_true, decide_eq_true_eq]
  rw [key, key]

end box

/-- **C76** A segment that meets the quadrilateral is never rejected by the box test. -/
theorem C76_box_keeps (s : Line ℝ) (q : Quad ℝ) (a b p : ℝ × ℝ) (h1 : p ∈ segment ℝ a b) (h2 : p ∈ quadRegion q) :
    ((s.setQuadPoints q).setLinePoints a b).checkIfOverlap = .ok true := by
  rw [C76_box_exact]
  obtain ⟨t, t0, t1, rfl⟩ := mem_segment_iff.mp h1
  have hb := hull_between h2
  have key : ∀ x y : ℝ, min x y ≤ x + t * (y - x) ∧ x + t * (y - x) ≤ max x y := by
    intro x y
    rcases le_total x y with h | h
    · rw [min_eq_left h, max_eq_right h]; constructor <;> nlinarith
    · rw [min_eq_right h, max_eq_left h]; constructor <;> nlinarith
  obtain ⟨⟨⟨i, hi⟩, j, hj⟩, ⟨k, hk⟩, l, hl⟩ := hb
  have k1 := key a.1 b.1
  have k2 := key a.2 b.2
  simp only [Prod.fst_add, Prod.smul_fst, Prod.fst_sub, Prod.snd_add, Prod.smul_snd, Prod.snd_sub, smul_eq_mul] at hi hj hk hl
  exact ⟨⟨⟨j, k1.1.trans hj⟩, i, hi.trans k1.2⟩, ⟨l, k2.1.trans hl⟩, k, hk.trans k2.2⟩

/-- **C76** Before both are set, the box test reads values never written and the collection follows a null pointer. -/
theorem C76_unset (g : Gels ℝ) (srt : List ℝ → List ℝ) (q : Quad ℝ) (a b : ℝ × ℝ) :
    ((Line.new : Line ℝ).setQuadPoints q).checkIfOverlap = .error .uninit ∧
    ((Line.new : Line ℝ).setLinePoints a b).checkIfOverlap = .error .uninit ∧
    ((Line.new : Line ℝ).setQuadPoints q).collectIntersectPoints g srt = .error .nullDeref ∧
    ((Line.new : Line ℝ).setLinePoints a b).collectIntersectPoints g srt = .error .nullDeref := ⟨rfl, rfl, rfl, rfl⟩

example : ((0 : ℝ), (0 : ℝ)) ∈ segment ℝ ((0 : ℝ), (0 : ℝ)) (1, 1) := left_mem_segment _ _ _

end Sg.Props
