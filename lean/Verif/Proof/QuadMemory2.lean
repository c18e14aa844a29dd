import Verif.Proof.QuadMemory
/-
The same for a quadrilateral and a segment, and for flows.
-/
namespace Sg.QuadMemory
open Sg.LinearSolve Sg.Triangulate Sg.QuadIntersect Sg.QuadLine Sg.QuadFlows Sg.FindPoint

set_option linter.unusedSectionVars false
variable {F : Type} [Zero F] [One F] [Add F] [Sub F] [Mul F] [Div F] [Neg F] [LT F] [DecidableLT F]
  [LE F] [DecidableLE F] [DecidableEq F] [NatCast F] [IntCast F] [FOps F]

/-! ### a quadrilateral and a segment -/

def Line.put (s : Line F) (sl : Solver F) (l : List F) : Line F := { s with slvr := sl, lambdas := s.lambdas ++ l }

theorem lput_put (s : Line F) (sl sl' : Solver F) (l l' : List F) : (s.put sl l).put sl' l' = s.put sl' (l ++ l') := by
  simp [Line.put]

theorem inQuad_mem (g : Gels F) (hg : QuadIntersect.KeepsSizes g) {m : Memory F} {p q : Option Ptr} {pt : Pt F} {i : Nat}
    {b : Quad F} (hp : loadPt m p i = .ok pt) (hq : quadAt m q = some b) (s : Solver F) (hs : Ready s) :
    ∃ s', isPointInQuad g m s p i q = .ok (s', inQuad g pt b) ∧ Ready s' := by
  obtain ⟨s', h1, h2⟩ := inQuad_ok g hg s hs pt b
  refine ⟨s', ?_, h2⟩
  rw [← h1]
  simp only [isPointInQuad, QuadLine.isPointInQuad, hp, loadPt_quad hq 0 (by omega),
    loadPt_quad hq 1 (by omega), loadPt_quad hq 2 (by omega), loadPt_quad hq 3 (by omega), bind, Except.bind, pure, Except.pure]
  rfl

theorem end_mem (g : Gels F) (hg : QuadIntersect.KeepsSizes g) {m : Memory F} (s : Line F) {pt : Pt F} {i : Nat} {q : Quad F}
    (hp : loadPt m s.line i = .ok pt) (hq : quadAt m s.quad = some q) (hs : Ready s.slvr) (x : F) :
    ∃ sl, s.collectEnd g m i x = .ok (s.put sl (endHit g pt q x)) ∧ Ready sl := by
  obtain ⟨s', h1, h2⟩ := inQuad_mem g hg hp hq s.slvr hs
  refine ⟨s', ?_, h2⟩
  simp only [Line.collectEnd, h1, bind, Except.bind, pure, Except.pure, endHit]
  split <;> simp [Line.put]

theorem ledge_mem (g : Gels F) (hg : QuadIntersect.KeepsSizes g) {m : Memory F} (s : Line F) {a b : Pt F} {q : Quad F}
    (hp : segAt m s.line = some (a, b)) (hq : quadAt m s.quad = some q) (hs : Ready s.slvr) (i : Nat) (hi : i < 4) :
    ∃ sl, s.collectEdge g m i = .ok (s.put sl (edgeHitL g q a b i)) ∧ Ready sl := by
  obtain ⟨s', he, hr, hx⟩ := solve2_ok g hg s.slvr hs (edgeMat (q (node i)) (q (node (i + 1))) a b) (triRhs a (q (node i)))
  refine ⟨s', ?_, hr⟩
  have hl : s'.getSolution.length = 2 := by show s'.x.length = 2; rw [hx, (hg _).2]; rfl
  have h2 := vget_two hl
  have hsol : s'.getSolution = (g (args2 (edgeMat (q (node i)) (q (node (i + 1))) a b) (triRhs a (q (node i))))).b := hx
  have n1 : node ((i + 1) % 4) = node (i + 1) := by simp [node]
  unfold Line.collectEdge edgeHitL edgeLam
  simp only [loadPt_quad hq i hi, loadPt_quad hq ((i + 1) % 4) (Nat.mod_lt _ (by omega)), (loadPt_seg hp).1, (loadPt_seg hp).2,
    n1, bind, Except.bind, pure, Except.pure, he, h2.1, h2.2]
  rw [hsol]
  split
  · simp [Line.put]
  · split <;> simp [Line.put]

theorem ledges_mem (g : Gels F) (hg : QuadIntersect.KeepsSizes g) {m : Memory F} (s : Line F) {a b : Pt F} {q : Quad F}
    (hp : segAt m s.line = some (a, b)) (hq : quadAt m s.quad = some q) (hs : Ready s.slvr) :
    ∃ sl, (forN 4 s fun i s => s.collectEdge g m i) = .ok (s.put sl ((List.range 4).flatMap (edgeHitL g q a b))) ∧ Ready sl := by
  obtain ⟨s', h1, sl, rfl, h2⟩ := forN_inv
    (fun k t => ∃ sl, t = s.put sl ((List.range k).flatMap (edgeHitL g q a b)) ∧ Ready sl)
    (fun i s => s.collectEdge g m i) 4 s ⟨s.slvr, by simp [Line.put], hs⟩ (by
    rintro k t hk ⟨sl, rfl, hr⟩
    obtain ⟨sl', h1, h2⟩ := ledge_mem g hg (s.put sl ((List.range k).flatMap (edgeHitL g q a b))) hp hq hr k hk
    refine ⟨_, h1, sl', ?_, h2⟩
    rw [lput_put, range_succ_flatMap])
  exact ⟨sl, h1, h2⟩

/-- The loop that fills the flat array of points. -/
theorem fill_points {m : Memory F} {p : Option Ptr} {a b : Pt F} (hp : segAt m p = some (a, b)) (lam data : List F)
    (hd : data.length = 2 * lam.length) :
    (forN lam.length data fun i data => do
      let lambda ← vget lam i
      let a ← loadPt m p 0
      let b ← loadPt m p 1
      let data ← vset data (i * 2 + 0) (a.1 + lambda * (b.1 - a.1))
      vset data (i * 2 + 1) (a.2 + lambda * (b.2 - a.2))) = .ok (flat (lam.map (linePoint a b))) := by
  have key : ∃ d, (forN lam.length data fun i data => do
      let lambda ← vget lam i
      let a ← loadPt m p 0
      let b ← loadPt m p 1
      let data ← vset data (i * 2 + 0) (a.1 + lambda * (b.1 - a.1))
      vset data (i * 2 + 1) (a.2 + lambda * (b.2 - a.2))) = .ok d ∧
      d = flat ((lam.take lam.length).map (linePoint a b)) ++ data.drop (2 * lam.length) := by
    apply forN_inv (fun k d => d = flat ((lam.take k).map (linePoint a b)) ++ data.drop (2 * k))
    · simp [flat]
    · rintro k d hk rfl
      have hv : vget lam k = .ok lam[k] := by simp [vget, hk]
      simp only [hv, (loadPt_seg hp).1, (loadPt_seg hp).2, bind, Except.bind]
      have hlen : (flat ((lam.take k).map (linePoint a b))).length = 2 * k := by
        rw [flat_length, List.length_map, List.length_take]; omega
      obtain ⟨x, y, hxy⟩ : ∃ x y, data.drop (2 * k) = x :: y :: data.drop (2 * (k + 1)) := by
        refine ⟨data[2 * k]'(by omega), data[2 * k + 1]'(by omega), ?_⟩
        rw [List.drop_eq_getElem_cons (by omega), List.drop_eq_getElem_cons (by omega)]
        rfl
      rw [hxy]
      have e0 : k * 2 + 0 = (flat ((lam.take k).map (linePoint a b))).length := by omega
      have e1 : k * 2 + 1 = (flat ((lam.take k).map (linePoint a b))).length + 1 := by omega
      refine ⟨_, ?_, rfl⟩
      rw [e0, e1]
      generalize hl : flat ((lam.take k).map (linePoint a b)) = l
      simp only [vset, List.length_append, List.length_cons]
      rw [if_pos (by omega)]
      simp only [List.length_set, List.length_append, List.length_cons]
      rw [if_pos (by omega)]
      simp only [List.set_append_right _ _ (le_refl _), Nat.sub_self, List.set_cons_zero,
        List.set_append_right _ _ (Nat.le_add_right _ 1), Nat.add_sub_cancel_left, List.set_cons_succ]
      rw [List.take_succ_eq_append_getElem hk, List.map_append, flat_append, hl]
      simp [flat, linePoint]
  obtain ⟨d, e, rfl⟩ := key
  rw [e]
  simp [hd]

theorem resize_length (grow : Nat → Nat) (v : Vec F) (k : Nat) : (v.resize grow k).data.length = k := by
  unfold Vec.resize
  split <;> simp <;> omega

theorem collectL_mem (g : Gels F) (hg : QuadIntersect.KeepsSizes g) (srt : List F → List F) (grow : Nat → Nat) {m : Memory F}
    (s : Line F) {a b : Pt F} {q : Quad F} (hp : segAt m s.line = some (a, b)) (hq : quadAt m s.quad = some q)
    (hs : Ready s.slvr) :
    ∃ sl, QuadIntersect.Ready sl ∧ s.collectIntersectPoints g srt grow m =
      .ok ({ s with
        slvr := sl
        lambdas := srt (s.lambdas ++ collectedL g q a b)
        pts := { s.pts.resize grow (2 * (srt (s.lambdas ++ collectedL g q a b)).length) with
          data := flat ((srt (s.lambdas ++ collectedL g q a b)).map (linePoint a b)) } },
      { numPoints := SideIterator.toInt (srt (s.lambdas ++ collectedL g q a b)).length
        points := if (srt (s.lambdas ++ collectedL g q a b)).length > 0 then
          some (s.pts.resize grow (2 * (srt (s.lambdas ++ collectedL g q a b)).length)).id else none }) := by
  obtain ⟨sl1, e1, r1⟩ := end_mem g hg s (loadPt_seg hp).1 hq hs 0
  obtain ⟨sl2, e2, r2⟩ := ledges_mem g hg (s.put sl1 (endHit g a q 0)) hp hq r1
  obtain ⟨sl3, e3, r3⟩ := end_mem g hg ((s.put sl1 (endHit g a q 0)).put sl2 ((List.range 4).flatMap (edgeHitL g q a b)))
    (loadPt_seg hp).2 hq r2 1
  refine ⟨sl3, r3, ?_⟩
  unfold Line.collectIntersectPoints
  simp only [bind, Except.bind, pure, Except.pure] at e1 e2 e3 ⊢
  simp only [e1, e2, e3]
  have hl : (((s.put sl1 (endHit g a q 0)).put sl2 ((List.range 4).flatMap (edgeHitL g q a b))).put sl3 (endHit g b q 1)) =
      s.put sl3 (collectedL g q a b) := by rw [lput_put, lput_put, collectedL]
  rw [hl]
  have hf := fill_points hp (srt (s.put sl3 (collectedL g q a b)).lambdas)
    ((s.put sl3 (collectedL g q a b)).pts.resize grow (2 * (srt (s.put sl3 (collectedL g q a b)).lambdas).length)).data
    (resize_length _ _ _)
  simp only [bind, Except.bind] at hf
  have hline : (s.put sl3 (collectedL g q a b)).line = s.line := rfl
  rw [hline, hf]
  rfl

theorem end_inv (g : Gels F) {m : Memory F} {s s' : Line F} {i : Nat} {x : F} (h : s.collectEnd g m i x = .ok s') :
    (∃ pt, loadPt m s.line i = .ok pt) ∧ (∃ q, quadAt m s.quad = some q) ∧ s'.line = s.line ∧ s'.quad = s.quad := by
  obtain ⟨r, hr, h⟩ := bind_ok_inv h
  obtain ⟨pt, hpt, hr⟩ := bind_ok_inv hr
  obtain ⟨_, _, hr⟩ := bind_ok_inv hr
  obtain ⟨_, _, hr⟩ := bind_ok_inv hr
  obtain ⟨_, hq, hr⟩ := bind_ok_inv hr
  refine ⟨⟨pt, hpt⟩, quadAt_of_pt hq, ?_⟩
  cases h
  split <;> exact ⟨rfl, rfl⟩

theorem ledge_inv (g : Gels F) {m : Memory F} {s s' : Line F} {i : Nat} (h : s.collectEdge g m i = .ok s') :
    s'.line = s.line ∧ s'.quad = s.quad := by
  obtain ⟨_, _, h⟩ := bind_ok_inv h
  obtain ⟨_, _, h⟩ := bind_ok_inv h
  obtain ⟨_, _, h⟩ := bind_ok_inv h
  obtain ⟨_, _, h⟩ := bind_ok_inv h
  obtain ⟨r, _, h⟩ := bind_ok_inv h
  dsimp only at h
  split at h
  · cases h; exact ⟨rfl, rfl⟩
  · obtain ⟨_, _, h⟩ := bind_ok_inv h
    obtain ⟨_, _, h⟩ := bind_ok_inv h
    split at h <;> (cases h; exact ⟨rfl, rfl⟩)

/-- A call that is defined had all the numbers. -/
theorem collectL_inv (g : Gels F) (srt : List F → List F) (grow : Nat → Nat) {m : Memory F} {s : Line F} {r : Line F × Found}
    (h : s.collectIntersectPoints g srt grow m = .ok r) :
    (∃ q, quadAt m s.quad = some q) ∧ ∃ a b, segAt m s.line = some (a, b) := by
  obtain ⟨s1, e1, h⟩ := bind_ok_inv h
  obtain ⟨s2, e2, h⟩ := bind_ok_inv h
  obtain ⟨s3, e3, h⟩ := bind_ok_inv h
  obtain ⟨_, hq, hl1, _⟩ := end_inv g e1
  have hl2 := forN_inv_ok (fun _ t => t.line = s1.line) _ 4 s1 s2 rfl (fun _ _ _ _ ht e => (ledge_inv g e).1.trans ht) e2
  obtain ⟨⟨pt, hpt⟩, _⟩ := end_inv g e3
  rw [hl2, hl1] at hpt
  obtain ⟨⟨a, b⟩, hab⟩ := segAt_of_pt hpt
  exact ⟨hq, a, b, hab⟩

theorem setQuad_mem {m : Memory F} {p : Option Ptr} {q : Quad F} (h : quadAt m p = some q) (s : Line F) :
    s.setQuadPoints m p = .ok { s with quad := p, quadBox := some (QuadLine.quadBox q) } := by
  simp only [Line.setQuadPoints, (loadAxis_quad h).1, (loadAxis_quad h).2, bind, Except.bind, pure, Except.pure, QuadLine.quadBox]

theorem setQuad_inv {m : Memory F} {p : Option Ptr} {s s' : Line F} (h : s.setQuadPoints m p = .ok s') :
    ∃ q, quadAt m p = some q := by
  obtain ⟨_, _, h⟩ := bind_ok_inv h
  obtain ⟨_, h1, h⟩ := bind_ok_inv h
  exact quadAt_of_axis h1

theorem setLine_mem {m : Memory F} {p : Option Ptr} {a b : Pt F} (h : segAt m p = some (a, b)) (s : Line F) :
    s.setLinePoints m p = .ok { s with line := p, lineBox := some (QuadLine.lineBox a b) } := by
  simp only [Line.setLinePoints, (loadPt_seg h).1, (loadPt_seg h).2, bind, Except.bind, pure, Except.pure]

theorem setLine_inv {m : Memory F} {p : Option Ptr} {s s' : Line F} (h : s.setLinePoints m p = .ok s') :
    ∃ ab, segAt m p = some ab := by
  obtain ⟨_, _, h⟩ := bind_ok_inv h
  obtain ⟨_, h1, h⟩ := bind_ok_inv h
  exact segAt_of_pt h1

theorem lineParams_eq (g : Gels F) (hg : QuadIntersect.KeepsSizes g) (q : Quad F) (a b : Pt F) :
    lineParams g q a b = collectedL g q a b := by
  obtain ⟨sl, _, e⟩ := collectL_ok g hg id (((QuadLine.Line.new : QuadLine.Line F).setQuadPoints q).setLinePoints a b)
    ready_new q _ a b _ rfl rfl
  simp only [lineParams, e]
  simp [QuadLine.Line.setLinePoints, QuadLine.Line.setQuadPoints, QuadLine.Line.new]

/-! ### flows -/

theorem setGrid_mem {m : Memory F} {p : Option Ptr} {q : Quad F} (h : quadAt m p = some q) (s : Flows F) :
    s.setQuadPoints m p = .ok { s with
      quad := p, finder := s.finder.setGrid (fun _ => 2) (fun _ => 0) (fun k j => comp (q (gridNode j)) k) } := by
  have h0 := load_quad h 0 (by omega)
  have h1 := load_quad h 1 (by omega)
  have h2 := load_quad h 2 (by omega)
  have h3 := load_quad h 3 (by omega)
  simp only [Flows.setQuadPoints, loadGrid, h0.1, h1.1, h2.1, h3.1, h0.2, h1.2, h2.2, h3.2, bind, Except.bind, pure, Except.pure]
  congr 3
  funext k j
  fin_cases k
  · match j with
    | 0 | 1 | 2 | _ + 3 => rfl
  · match j with
    | 0 | 1 | 2 | _ + 3 => rfl

theorem setGrid_inv {m : Memory F} {p : Option Ptr} {s s' : Flows F} (h : s.setQuadPoints m p = .ok s') :
    ∃ q, quadAt m p = some q := by
  obtain ⟨_, _, h⟩ := bind_ok_inv h
  obtain ⟨_, h1, h⟩ := bind_ok_inv h
  obtain ⟨_, _, h1⟩ := bind_ok_inv h1
  obtain ⟨_, hx, h1⟩ := bind_ok_inv h1
  exact quadAt_of_load hx

/-- The object without pointers that has the same content. -/
def Flows.value (s : Flows F) (l : Option (Pt F × Pt F)) : QuadFlows.Flows F :=
  { line := l, projections := s.projections, finder := s.finder, xia := s.xia, xib := s.xib }

/-- The object with pointers and the content of one without. -/
def Flows.withValue (s : Flows F) (t : QuadFlows.Flows F) : Flows F :=
  { s with projections := t.projections, finder := t.finder, xia := t.xia, xib := t.xib }

theorem compute_null (g : Gels F) (m : Memory F) (s : Flows F) (h : s.line = none) :
    s.computeProjections g m = ((s.value none).computeProjections g).map fun r => (s.withValue r.1, r.2) := by
  simp only [Flows.computeProjections, Flows.computeStartEndLineIndices, h, if_true, QuadFlows.Flows.computeProjections,
    QuadFlows.Flows.computeStartEndLineIndices, Flows.value, bind, Except.bind, pure, Except.pure, Except.map, Flows.withValue]

theorem compute_mem (g : Gels F) {m : Memory F} (s : Flows F) {a b : Pt F} (h : segAt m s.line = some (a, b)) :
    s.computeProjections g m = ((s.value (some (a, b))).computeProjections g).map fun r => (s.withValue r.1, r.2) := by
  have hne : s.line ≠ none := by rintro e; rw [e] at h; simp [segAt] at h
  simp only [Flows.computeProjections, Flows.computeStartEndLineIndices, if_neg hne, QuadFlows.Flows.computeProjections,
    QuadFlows.Flows.computeStartEndLineIndices, Flows.value, bind, Except.bind, pure, Except.pure, (loadPt_seg h).1,
    (loadPt_seg h).2]
  cases findIndices g s.finder a with
  | error e => rfl
  | ok r =>
    obtain ⟨c, x, f⟩ := r
    dsimp only
    cases findIndices g f b with
    | error e => rfl
    | ok r =>
      obtain ⟨c', x', f'⟩ := r
      rfl

theorem compute_inv (g : Gels F) {m : Memory F} {s : Flows F} {r : Flows F × Int} (h : s.computeProjections g m = .ok r)
    (hne : s.line ≠ none) : ∃ a b, segAt m s.line = some (a, b) := by
  obtain ⟨r1, h1, _⟩ := bind_ok_inv h
  unfold Flows.computeStartEndLineIndices at h1
  rw [if_neg hne] at h1
  obtain ⟨_, _, h1⟩ := bind_ok_inv h1
  obtain ⟨_, _, h1⟩ := bind_ok_inv h1
  obtain ⟨_, h2, h1⟩ := bind_ok_inv h1
  obtain ⟨⟨a, b⟩, hab⟩ := segAt_of_pt h2
  exact ⟨a, b, hab⟩

end Sg.QuadMemory
