import Verif.Spec.RoundedCells
import Verif.Proof.ConserveExact
import Verif.Proof.QuadIntersectRounded
import Verif.Props.CollectRounding
/-
`computeWeights` in rounded arithmetic.  The caches hold crossings found in either direction of the edges, so that what is taken from
them is near the exact crossing but may differ from what would be computed again.
-/
namespace Sg.Conserve
open Sg Sg.LinearSolve Sg.Triangulate Sg.QuadIntersect Sg.Spec Sg.Plane Sg.Props MeasureTheory

variable {rnd : ℝ → ℝ}

/-- The caches hold only true facts: crossings are near the exact ones. -/
structure CacheNear (g : Gels (Fl rnd)) (dp sp : Nat → Pt (Fl rnd)) (dq sq : Nat → Quad (Fl rnd)) (ρ : ℝ) (X : EdgeKey → Option P2)
    (c : Cache (Fl rnd)) : Prop where
  dstIn : ∀ n j p, mfind c.dstIn (n, j) = some p → inCell g (dp n) (sq j) = true
  srcIn : ∀ i n p, mfind c.srcIn (i, n) = some p → inCell g (sp n) (dq i) = true
  noX : ∀ k ∈ c.edgeNoX, X k = none
  edgeX : ∀ k p, mfind c.edgeX k = some p → ∃ q, X k = some q ∧ NearPt ρ p q

theorem cacheNear_empty (g : Gels (Fl rnd)) (dp sp : Nat → Pt (Fl rnd)) (dq sq : Nat → Quad (Fl rnd)) (ρ : ℝ)
    (X : EdgeKey → Option P2) : CacheNear g dp sp dq sq ρ X Cache.empty :=
  ⟨by intro _ _ _ h; (cases h), by intro _ _ _ h; (cases h), by intro _ h; (cases h), by intro _ _ h; (cases h)⟩

section steps
variable {g : Gels (Fl rnd)} (hg : KeepsSizes g) {dp sp : Nat → Pt (Fl rnd)} {dq sq : Nat → Quad (Fl rnd)} {ρ : ℝ}
  {X : EdgeKey → Option P2}
include hg

theorem dstNodeStep_near {w : Work (Fl rnd)} (hs : Ready w.1.slvr) (hc : CacheNear g dp sp dq sq ρ X w.2) {j n : Nat} {p : Pt (Fl rnd)}
    {q : Quad (Fl rnd)} (hp : p = dp n) (hq : q = sq j) :
    ∃ sl c, dstNodeStep g j n p q w = .ok (w.1.put sl (if inCell g p q then [p] else []), c) ∧ Ready sl ∧
      CacheNear g dp sp dq sq ρ X c := by
  unfold dstNodeStep
  cases hf : mfind w.2.dstIn (n, j) with
  | some p' =>
    have hin := hc.dstIn _ _ _ hf
    rw [← hp, ← hq] at hin
    exact ⟨w.1.slvr, w.2, by simp [hin, Isect.put, Isect.addPoint, pure, Except.pure], hs, hc⟩
  | none =>
    obtain ⟨sl, e, hr⟩ := inCell_ok g hg w.1.slvr hs p q
    simp only [e, bind, Except.bind, pure, Except.pure]
    split
    · rename_i hin
      refine ⟨sl, _, rfl, hr, ⟨?_, hc.srcIn, hc.noX, hc.edgeX⟩⟩
      intro n' j' p' h
      rcases mfind_madd h with ⟨hk, _⟩ | h
      · cases hk; rw [← hp, ← hq]; exact hin
      · exact hc.dstIn _ _ _ h
    · exact ⟨sl, w.2, by simp [Isect.put], hr, hc⟩

theorem srcNodeStep_near {w : Work (Fl rnd)} (hs : Ready w.1.slvr) (hc : CacheNear g dp sp dq sq ρ X w.2) {i n : Nat} {p : Pt (Fl rnd)}
    {q : Quad (Fl rnd)} (hp : p = sp n) (hq : q = dq i) :
    ∃ sl c, srcNodeStep g i n p q w = .ok (w.1.put sl (if inCell g p q then [p] else []), c) ∧ Ready sl ∧
      CacheNear g dp sp dq sq ρ X c := by
  unfold srcNodeStep
  cases hf : mfind w.2.srcIn (i, n) with
  | some p' =>
    have hin := hc.srcIn _ _ _ hf
    rw [← hp, ← hq] at hin
    exact ⟨w.1.slvr, w.2, by simp [hin, Isect.put, Isect.addPoint, pure, Except.pure], hs, hc⟩
  | none =>
    obtain ⟨sl, e, hr⟩ := inCell_ok g hg w.1.slvr hs p q
    simp only [e, bind, Except.bind, pure, Except.pure]
    split
    · rename_i hin
      refine ⟨sl, _, rfl, hr, ⟨hc.dstIn, ?_, hc.noX, hc.edgeX⟩⟩
      intro n' j' p' h
      rcases mfind_madd h with ⟨hk, _⟩ | h
      · cases hk; rw [← hp, ← hq]; exact hin
      · exact hc.srcIn _ _ _ h
    · exact ⟨sl, w.2, by simp [Isect.put], hr, hc⟩

theorem edgeStep_near {w : Work (Fl rnd)} (hs : Ready w.1.slvr) (hc : CacheNear g dp sp dq sq ρ X w.2) {key : EdgeKey}
    {a0 a1 b0 b1 : Pt (Fl rnd)} (hX : Option.Rel (NearPt ρ) (edgeX g a0 a1 b0 b1) (X key)) :
    ∃ sl c l, edgeStep g key a0 a1 b0 b1 w = .ok (w.1.put sl l, c) ∧ Ready sl ∧ CacheNear g dp sp dq sq ρ X c ∧
      List.Forall₂ (NearPt ρ) l (X key).toList := by
  unfold edgeStep
  by_cases hk : key ∈ w.2.edgeNoX
  · have hn := hc.noX key hk
    rw [if_pos hk, hn]
    exact ⟨w.1.slvr, w.2, [], by simp [Isect.put, pure, Except.pure], hs, hc, List.Forall₂.nil⟩
  · rw [if_neg hk]
    cases hf : mfind w.2.edgeX key with
    | some p =>
      obtain ⟨q, hn, hq⟩ := hc.edgeX _ _ hf
      rw [hn]
      exact ⟨w.1.slvr, w.2, [p], by simp [Isect.put, Isect.addPoint, pure, Except.pure], hs, hc,
        List.Forall₂.cons hq List.Forall₂.nil⟩
    | none =>
      obtain ⟨sl, e, hr⟩ := edgeX_ok g hg w.1 hs a0 a1 b0 b1
      simp only [e, bind, Except.bind, pure, Except.pure]
      cases he : edgeX g a0 a1 b0 b1 with
      | none =>
        rw [he] at hX
        have hXn : X key = none := by
          generalize X key = x at hX
          cases hX; rfl
        refine ⟨sl, _, [], rfl, hr, ⟨hc.dstIn, hc.srcIn, ?_, hc.edgeX⟩, by rw [hXn]; exact List.Forall₂.nil⟩
        intro k hk
        rcases List.mem_cons.mp hk with rfl | hk
        · exact hXn
        · exact hc.noX k hk
      | some p =>
        rw [he] at hX
        have hXs : ∃ q, X key = some q ∧ NearPt ρ p q := by
          generalize X key = x at hX
          cases hX with
          | some h => exact ⟨_, rfl, h⟩
        obtain ⟨q, hXq, hq⟩ := hXs
        refine ⟨sl, _, [p], rfl, hr, ⟨hc.dstIn, hc.srcIn, hc.noX, ?_⟩, by rw [hXq]; exact List.Forall₂.cons hq List.Forall₂.nil⟩
        intro k p' h
        rcases mfind_madd h with ⟨rfl, rfl⟩ | h
        · exact ⟨q, hXq, hq⟩
        · exact hc.edgeX _ _ h

/-- The loops over a pair of cells add points near those of the pair in exact arithmetic. -/
theorem pairStep_near {w : Work (Fl rnd)} (hs : Ready w.1.slvr) (hc : CacheNear g dp sp dq sq ρ X w.2) {i j : Nat} {dn sn : Fin 4 → Nat}
    (ge : Gels ℝ) (hd : ∀ k, dq i k = dp (dn k)) (hsrc : ∀ k, sq j k = sp (sn k))
    (hX : ∀ k l, Option.Rel (NearPt ρ) (edgeX g (dq i k) (dq i (k + 1)) (sq j l) (sq j (l + 1)))
      (X (sortPair (dn k) (dn (k + 1)), sortPair (sn l) (sn (l + 1)))))
    (hXe : ∀ k l, X (sortPair (dn k) (dn (k + 1)), sortPair (sn l) (sn (l + 1))) =
      edgeX ge (valQuad (dq i) k) (valQuad (dq i) (k + 1)) (valQuad (sq j) l) (valQuad (sq j) (l + 1)))
    (hN1 : ∀ k, List.Forall₂ (NearPt ρ) (nodeHit g (dq i) (sq j) k) (nodeHit ge (valQuad (dq i)) (valQuad (sq j)) k))
    (hN2 : ∀ k, List.Forall₂ (NearPt ρ) (nodeHit g (sq j) (dq i) k) (nodeHit ge (valQuad (sq j)) (valQuad (dq i)) k)) :
    ∃ sl c pts, pairStep g i j dn (dq i) sn (sq j) w = .ok (w.1.put sl pts, c) ∧ Ready sl ∧ CacheNear g dp sp dq sq ρ X c ∧
      List.Forall₂ (NearPt ρ) pts (pairPoints ge (valQuad (dq i)) (valQuad (sq j))) := by
  have hX' : ∀ k l : Nat, Option.Rel (NearPt ρ) (edgeX g (dq i (node k)) (dq i (node (k + 1))) (sq j (node l)) (sq j (node (l + 1))))
      (X (sortPair (dn (node k)) (dn (node (k + 1))), sortPair (sn (node l)) (sn (node (l + 1))))) := by
    intro k l; rw [node_succ, node_succ]; exact hX _ _
  have hXe' : ∀ k l : Nat, (X (sortPair (dn (node k)) (dn (node (k + 1))), sortPair (sn (node l)) (sn (node (l + 1))))).toList =
      edgeHit ge (valQuad (dq i)) (valQuad (sq j)) k l := by
    intro k l; unfold edgeHit; rw [node_succ, node_succ, hXe]
  set D := valQuad (dq i)
  set S := valQuad (sq j)
  unfold pairStep
  obtain ⟨s', h1, sl, c, pts, rfl, h2, h3, h4⟩ := forN_inv (fun k t => ∃ sl c l, t = (w.1.put sl l, c) ∧
        Ready sl ∧ CacheNear g dp sp dq sq ρ X c ∧ List.Forall₂ (NearPt ρ) l
      ((List.range k).flatMap fun k => nodeHit ge D S k ++ (List.range 4).flatMap (rowPoints ge D S k)))
    (fun k w => do
      let w ← dstNodeStep g j (dn (node k)) (dq i (node k)) (sq j) w
      forN 4 w fun l w => do
        let w ← srcNodeStep g i (sn (node l)) (sq j (node l)) (dq i) w
        edgeStep g (sortPair (dn (node k)) (dn (node (k + 1))), sortPair (sn (node l)) (sn (node (l + 1))))
          (dq i (node k)) (dq i (node (k + 1))) (sq j (node l)) (sq j (node (l + 1))) w) 4 w
    ⟨w.1.slvr, w.2, [], by simp [Isect.put], hs, hc, List.Forall₂.nil⟩ (by
    rintro k t hk ⟨sl, c, l, rfl, hr, hcc, hnear⟩
    obtain ⟨sl1, c1, e1, r1, k1⟩ := dstNodeStep_near hg (w := (w.1.put sl l, c)) hr hcc (hd (node k)) (rfl : sq j = sq j)
    obtain ⟨t', h1, sl', c', m, rfl, h2, h3, h4⟩ := forN_inv (fun l' t => ∃ sl' c' m, t = (((w.1.put sl l).put sl1
        (nodeHit g (dq i) (sq j) k)).put sl' m, c') ∧ Ready sl' ∧
          CacheNear g dp sp dq sq ρ X c' ∧ List.Forall₂ (NearPt ρ) m ((List.range l').flatMap (rowPoints ge D S k)))
      (fun l w => do
        let w ← srcNodeStep g i (sn (node l)) (sq j (node l)) (dq i) w
        edgeStep g (sortPair (dn (node k)) (dn (node (k + 1))), sortPair (sn (node l)) (sn (node (l + 1))))
          (dq i (node k)) (dq i (node (k + 1))) (sq j (node l)) (sq j (node (l + 1))) w) 4
      ((w.1.put sl l).put sl1 (nodeHit g (dq i) (sq j) k), c1) ⟨sl1, c1, [], by simp [Isect.put], r1, k1, List.Forall₂.nil⟩ (by
      rintro l' t hl' ⟨sl', c', m, rfl, hr', hc', hm⟩
      obtain ⟨sl2, c2, e2, r2, k2⟩ := srcNodeStep_near hg (w := (((w.1.put sl l).put sl1
        (nodeHit g (dq i) (sq j) k)).put sl' m, c')) hr' hc' (hsrc (node l')) (rfl : dq i = dq i)
      obtain ⟨sl3, c3, m3, e3, r3, k3, n3⟩ := edgeStep_near hg (w := ((((w.1.put sl l).put sl1
        (nodeHit g (dq i) (sq j) k)).put sl' m).put sl2 (nodeHit g (sq j) (dq i) l'), c2)) r2 k2 (hX' k l')
      refine ⟨_, ?_, sl3, c3, m ++ (nodeHit g (sq j) (dq i) l' ++ m3), rfl, r3, k3, ?_⟩
      · simp only [bind, Except.bind]
        rw [e2]
        simp only
        refine Eq.trans e3 ?_
        simp only [put_put, List.append_assoc]
      · rw [range_succ_flatMap]
        refine List.rel_append hm ?_
        unfold rowPoints
        rw [← hXe']
        exact List.rel_append (hN2 l') n3)
    refine ⟨_, ?_, sl', c', l ++ (nodeHit g (dq i) (sq j) k ++ m), rfl, h2, h3, ?_⟩
    · simp only [bind, Except.bind] at h1 ⊢
      rw [e1]
      simp only
      refine Eq.trans h1 ?_
      simp only [put_put, List.append_assoc]
    · rw [range_succ_flatMap _ k]
      exact List.rel_append hnear (List.rel_append (hN1 k) h4))
  exact ⟨sl, c, pts, h1, h2, h3, h4⟩

end steps

/-! ### One pair of cells -/

theorem flatMap_le {α : Type} (f : Nat → List α) (b : Nat) (h : ∀ k, (f k).length ≤ b) (n : Nat) :
    ((List.range n).flatMap f).length ≤ n * b := by
  induction n with
  | zero => simp
  | succ n ih =>
    rw [range_succ_flatMap, List.length_append, Nat.succ_mul]
    exact Nat.add_le_add ih (h n)

theorem pairPoints_le {F : Type} [Zero F] [One F] [Add F] [Sub F] [Mul F] [Div F] [Neg F] [LT F] [DecidableLT F] [LE F] [DecidableLE F]
    [NatCast F] (g : Gels F) (d s : Quad F) : (pairPoints g d s).length ≤ 36 := by
  have hn : ∀ (a b : Quad F) k, (nodeHit g a b k).length ≤ 1 := by
    intro a b k; unfold nodeHit; split <;> simp
  have he : ∀ k l, (edgeHit g d s k l).length ≤ 1 := by
    intro k l; unfold edgeHit; cases edgeX g _ _ _ _ <;> simp
  refine flatMap_le _ 9 (fun k => ?_) 4
  have := flatMap_le (rowPoints g d s k) 2 (fun l => by
    unfold rowPoints; rw [List.length_append]; have := hn s d l; have := he k l; omega) 4
  rw [List.length_append]
  have := hn d s k
  omega

theorem stdMin_val (a b : Fl rnd) : (stdMin a b).val = stdMin a.val b.val := by
  unfold stdMin
  by_cases h : b.val < a.val
  · rw [if_pos (show b < a from h), if_pos h]
  · rw [if_neg (show ¬ b < a from h), if_neg h]

theorem stdMax_val (a b : Fl rnd) : (stdMax a b).val = stdMax a.val b.val := by
  unfold stdMax
  by_cases h : a.val < b.val
  · rw [if_pos (show a < b from h), if_pos h]
  · rw [if_neg (show ¬ a < b from h), if_neg h]

theorem axisOverlap_val (a b : Fin 4 → Fl rnd) : axisOverlap a b = axisOverlap (fun i => (a i).val) (fun i => (b i).val) := by
  unfold axisOverlap
  have : (stdMax (quadMin a) (quadMin b) ≤ stdMin (quadMax a) (quadMax b)) ↔
      (stdMax (quadMin a) (quadMin b)).val ≤ (stdMin (quadMax a) (quadMax b)).val := Iff.rfl
  rw [decide_eq_decide, this]
  unfold quadMin quadMax
  simp only [stdMin_val, stdMax_val]

theorem boxesOverlap_val (d s : Quad (Fl rnd)) : boxesOverlap d s = boxesOverlap (valQuad d) (valQuad s) := by
  unfold boxesOverlap
  rw [axisOverlap_val, axisOverlap_val]
  rfl

theorem areaError_mono {u ρ D A A' : ℝ} {n m : Nat} (hu : 0 ≤ u) (hk : 0 ≤ sumError u 0 ρ D) (hA : 0 ≤ A) (h : A ≤ A') (hn : n ≤ m) :
    areaError u 0 ρ D n A ≤ areaError u 0 ρ D m A' := by
  unfold areaError
  have h1 : (n : ℝ) ≤ m := by exact_mod_cast hn
  have h2 : (1 + u) ^ n ≤ (1 + u) ^ m := pow_le_pow_right₀ (by linarith) hn
  have h3 : u * A ≤ u * A' := mul_le_mul_of_nonneg_left h hu
  have h0 : 0 ≤ u * A := mul_nonneg hu hA
  have h4 : (n : ℝ) * (1 + u) ^ n * (sumError u 0 ρ D + 2 * u * A + 0) ≤ m * (1 + u) ^ m * (sumError u 0 ρ D + 2 * u * A' + 0) := by
    refine mul_le_mul (mul_le_mul h1 h2 (by positivity) (by positivity)) (by linarith) (by linarith) (by positivity)
  have h5 := mul_le_mul_of_nonneg_left h4 (show 0 ≤ (1 + u) / 2 by positivity)
  linarith

theorem sumError_nonneg {u η ρ D : ℝ} (hu : 0 ≤ u) (hη : 0 ≤ η) (hρ : 0 ≤ ρ) (hD : 0 ≤ D) : 0 ≤ sumError u η ρ D := by
  unfold sumError prodError diffError
  positivity

theorem range_spread {d : Quad ℝ} {L R : ℝ} (h : SizedBy L R d) : SpreadBy L (Set.range d) := by
  rintro _ ⟨i, rfl⟩ _ ⟨j, rfl⟩
  exact (h i j).2.2

theorem area_inter_le (d s : Quad ℝ) : area (quadRegion d ∩ quadRegion s) ≤ area (quadRegion d) :=
  ENNReal.toReal_mono (isCompact_region d).measure_lt_top.ne (measure_mono Set.inter_subset_left)

theorem area_nonneg (A : Set P2) : 0 ≤ area A := ENNReal.toReal_nonneg

section pair
variable {g : Gels (Fl rnd)} {u β Δ L R : ℝ} {sort : List (Pt (Fl rnd)) → List (Pt (Fl rnd))} {d s : Quad ℝ} {ge : Gels ℝ}

theorem ptsOf_pair_safe (hge : GelsContract ge) (hΔ : 0 ≤ Δ) (hc : SafePair Δ d s) : ptsOf (pairPoints ge d s) = cornerPoints d s := by
  rw [← collected_safe hge hΔ hc]
  ext p
  exact mem_pairPoints

theorem hull_pair_safe (hge : GelsContract ge) (hΔ : 0 ≤ Δ) (hc : SafePair Δ d s) :
    convexHull ℝ (ptsOf (pairPoints ge d s)) = quadRegion d ∩ quadRegion s := by
  rw [ptsOf_pair_safe hge hΔ hc]
  exact hull_corner hc.convex.1 hc.convex.2 (corner_safe hge hΔ hc)

variable (hf : SolvesFinely rnd g u β Δ) (hfine : FineBy rnd u 0 (crossError u β Δ L R) L) (hsort : ∀ l, IsStdSort l (sort l))
  (hge : GelsContract ge) (hc : SafeCells u β Δ L R d s)
include hf hfine hsort hge hc

theorem pair_area_near {pts : List (Pt (Fl rnd))} (hn : List.Forall₂ (NearPt (crossError u β Δ L R)) pts (pairPoints ge d s)) {a : Fl rnd}
    (h : hullArea .keptBuffer (sort pts) = .ok a) : |a.val - area (quadRegion d ∩ quadRegion s)| ≤
      overlapError u (crossError u β Δ L R) L (area (quadRegion d)) := by
  have e := ptsOf_pair_safe hge hf.shape.le hc.safe
  have := C109_hull_area_returned hfine pts _ _ hn (hsort _) (by rw [e]; exact corner_spread hc.sized) (by rw [e]; exact hc.points)
    (by rw [e]; exact corner_convexPosition hc.safe.convex.1 hc.safe.convex.2) a h
  rw [hull_pair_safe hge hf.shape.le hc.safe] at this
  exact this.trans (areaError_mono hf.rounds.rel (sumError_nonneg hf.rounds.rel le_rfl hfine.near hfine.size) (area_nonneg _)
    (area_inter_le d s) (pairPoints_le ge d s))

theorem pair_area_exists {pts : List (Pt (Fl rnd))} (hn : List.Forall₂ (NearPt (crossError u β Δ L R)) pts (pairPoints ge d s))
    (hpos : 0 < area (quadRegion d ∩ quadRegion s)) : ∃ a, hullArea .keptBuffer (sort pts) = .ok a := by
  have e := ptsOf_pair_safe hge hf.shape.le hc.safe
  have hh := hull_pair_safe hge hf.shape.le hc.safe
  have hnc : ¬ Collinear2 (ptsOf (pairPoints ge d s)) := by
    intro hcol
    rw [area, ← hh, volume_hull_collinear hcol] at hpos
    simp at hpos
  obtain ⟨a, ha, -⟩ := C109_hull_area hfine .keptBuffer pts _ _ hn (hsort _) (by rw [e]; exact corner_spread hc.sized)
    (by rw [e]; exact hc.points) (by rw [e]; exact corner_convexPosition hc.safe.convex.1 hc.safe.convex.2) hnc (Or.inl rfl)
  exact ⟨a, ha⟩

omit hfine hsort in
theorem pair_small_near (h : ¬ 3 ≤ (pairPoints ge d s).length) : area (quadRegion d ∩ quadRegion s) = 0 := by
  have hcol : Collinear2 (ptsOf (pairPoints ge d s)) := by
    have key : ∀ l : List P2, ¬ 3 ≤ l.length → Collinear2 (ptsOf l) := by
      intro l hl p hp q hq r hr
      match l, hl, hp, hq, hr with
      | [], _, hp, _, _ => exact absurd hp (by simp [ptsOf])
      | [x], _, hp, hq, hr =>
        have h1 : p = x := by simpa [ptsOf] using hp
        have h2 : q = x := by simpa [ptsOf] using hq
        subst h1 h2
        simp [area2]
      | [x, y], _, hp, hq, hr =>
        have h1 : p = x ∨ p = y := by simpa [ptsOf] using hp
        have h2 : q = x ∨ q = y := by simpa [ptsOf] using hq
        have h3 : r = x ∨ r = y := by simpa [ptsOf] using hr
        unfold area2
        rcases h1 with rfl | rfl <;> rcases h2 with rfl | rfl <;> rcases h3 with rfl | rfl <;> ring
      | x :: y :: z :: l, hl, _, _, _ => exact absurd (by simp) hl
    exact key _ h
  rw [area, ← hull_pair_safe hge hf.shape.le hc.safe, volume_hull_collinear hcol]
  rfl

omit hge in
theorem cell_area_near {q : Quad (Fl rnd)} (hq : valQuad q = d) :
    ∃ a, hullArea .keptBuffer (sort [q 0, q 1, q 2, q 3]) = .ok a ∧ |a.val - area (quadRegion d)| ≤
      overlapError u (crossError u β Δ L R) L (area (quadRegion d)) := by
  have hn : List.Forall₂ (NearPt (crossError u β Δ L R)) [q 0, q 1, q 2, q 3] [d 0, d 1, d 2, d 3] := by
    have hk : ∀ k, NearPt (crossError u β Δ L R) (q k) (d k) := by
      intro k
      rw [← hq]
      unfold NearPt valQuad valPt
      simp [hfine.near]
    exact .cons (hk 0) (.cons (hk 1) (.cons (hk 2) (.cons (hk 3) .nil)))
  obtain ⟨a, ha, h⟩ := C109_hull_area hfine .keptBuffer _ _ _ hn (hsort _) (by rw [range_list]; exact range_spread hc.sized)
    (by rw [range_list]; exact hc.dstPoints) (by rw [range_list]; exact quad_convexPosition hc.safe.convex.1)
    (by rw [range_list]; exact quad_not_collinear hc.safe.convex.1) (Or.inl rfl)
  rw [range_list] at h
  exact ⟨a, ha, h.trans (areaError_mono hf.rounds.rel (sumError_nonneg hf.rounds.rel le_rfl hfine.near hfine.size) (area_nonneg _)
    le_rfl (by simp))⟩

end pair

/-- The quotient of two areas. -/
theorem quotient_near {u a a0 b A E : ℝ} (hr : Rounds rnd u 0) (h0 : 0 ≤ a0) (hA : a0 ≤ A) (ha : |a - a0| ≤ E) (hb : |b - A| ≤ E)
    (hE : E < A) : |rnd (a / b) - a0 / A| ≤ weightError u E A := by
  have hE0 : 0 ≤ E := (abs_nonneg _).trans ha
  have hApos : 0 < A := by linarith
  have hbpos : 0 < b := by have := (abs_le.mp hb).1; linarith
  have hbE : A - E ≤ b := by have := (abs_le.mp hb).1; linarith
  have hu := hr.rel
  have q1 : a0 / A ≤ 1 := (div_le_one hApos).mpr hA
  have q0 : 0 ≤ a0 / A := div_nonneg h0 hApos.le
  have key : |a / b - a0 / A| ≤ 2 * E / (A - E) := by
    have e : a / b - a0 / A = ((a - a0) - a0 / A * (b - A)) / b := by field_simp; ring
    rw [e, abs_div, abs_of_pos hbpos]
    have hnum : |(a - a0) - a0 / A * (b - A)| ≤ 2 * E := by
      have h1 := abs_sub (a - a0) (a0 / A * (b - A))
      have h2 : |a0 / A * (b - A)| ≤ 1 * E := by
        rw [abs_mul, abs_of_nonneg q0]
        exact mul_le_mul q1 hb (abs_nonneg _) zero_le_one
      linarith
    have h3 : 0 < A - E := by linarith
    calc _ ≤ 2 * E / b := by gcongr
      _ ≤ _ := by gcongr
  have h1 := rnd_near hr (a / b)
  have h2 : |a / b| ≤ 2 * E / (A - E) + 1 := by
    have := abs_add_le (a / b - a0 / A) (a0 / A)
    rw [sub_add_cancel, abs_of_nonneg q0] at this
    linarith
  have h3 := abs_add_le (rnd (a / b) - a / b) (a / b - a0 / A)
  rw [sub_add_sub_cancel] at h3
  unfold weightError
  have h4 : u * |a / b| ≤ u * (2 * E / (A - E) + 1) := mul_le_mul_of_nonneg_left h2 hu
  nlinarith

/-! ### The table -/

/-- What is to be said of the weights of a destination cell: source cells in increasing order, each with the fraction it covers within
`ε`, and no area where there is no weight. -/
structure CellNear (ε : ℝ) (d : Quad ℝ) (s : Nat → Quad ℝ) (n : Nat) (l : List (Nat × Fl rnd)) : Prop where
  sorted : l.Pairwise fun a b => a.1 < b.1
  lt : ∀ e ∈ l, e.1 < n
  weight : ∀ e ∈ l, |e.2.val - overlapFraction d (s e.1)| ≤ ε
  none : ∀ j < n, (∀ w, (j, w) ∉ l) → area (quadRegion d ∩ quadRegion (s j)) = 0

/-- What is to be said of the table. -/
structure TableNear (ε : Nat → ℝ) (d s : Nat → Quad ℝ) (m n : Nat) (t : List (Nat × List (Nat × Fl rnd))) : Prop where
  sorted : t.Pairwise fun a b => a.1 < b.1
  lt : ∀ e ∈ t, e.1 < m
  nonempty : ∀ e ∈ t, e.2 ≠ []
  cell : ∀ e ∈ t, CellNear (ε e.1) (d e.1) s n e.2
  none : ∀ i < m, (∀ l, (i, l) ∉ t) → CellNear (rnd := rnd) (ε i) (d i) s n []

theorem CellNear.lookup {ε : ℝ} (hε : 0 ≤ ε) {d : Quad ℝ} {s : Nat → Quad ℝ} {n : Nat} {l : List (Nat × Fl rnd)}
    (h : CellNear ε d s n l) {j : Nat} (hj : j < n) : |((l.lookup j).getD 0).val - overlapFraction d (s j)| ≤ ε := by
  cases hl : l.lookup j with
  | some w =>
    obtain ⟨l1, l2, rfl, -⟩ := List.lookup_eq_some_iff.mp hl
    exact h.weight (j, w) (by simp)
  | none =>
    have : ∀ w, (j, w) ∉ l := by
      intro w hw
      have := List.lookup_eq_none_iff.mp hl (j, w) hw
      simp at this
    show |(0 : ℝ) - _| ≤ ε
    rw [overlapFraction, h.none j hj this, zero_div, sub_zero, abs_zero]
    exact hε

theorem TableNear.weightOf {ε : Nat → ℝ} {d s : Nat → Quad ℝ} {m n : Nat} {t : List (Nat × List (Nat × Fl rnd))}
    (h : TableNear ε d s m n t) {i j : Nat} (hε : 0 ≤ ε i) (hi : i < m) (hj : j < n) :
    |(weightOf t i j).val - overlapFraction (d i) (s j)| ≤ ε i := by
  unfold Spec.weightOf
  cases hl : t.lookup i with
  | some l =>
    obtain ⟨l1, l2, rfl, -⟩ := List.lookup_eq_some_iff.mp hl
    exact (h.cell (i, l) (by simp)).lookup hε hj
  | none =>
    have : ∀ w, (i, w) ∉ t := by
      intro w hw
      have := List.lookup_eq_none_iff.mp hl (i, w) hw
      simp at this
    exact (h.none i hi this).lookup hε hj

section table
variable {g : Gels (Fl rnd)} {u β Δ L R : ℝ} {sort : List (Pt (Fl rnd)) → List (Pt (Fl rnd))} {dst src : Grid (Fl rnd)}
  {dp sp : Nat → Pt (Fl rnd)}

/-- The exact cells. -/
def exactCell (gr : Grid (Fl rnd)) (p : Nat → Pt (Fl rnd)) (i : Nat) : Quad ℝ := valQuad (gr.cellQuad p i)

/-- The exact crossing of two edges of the grids. -/
noncomputable def exactX (dp sp : Nat → Pt (Fl rnd)) : EdgeKey → Option P2 := crossingOf (fun n => valPt (dp n)) (fun n => valPt (sp n))

variable (hf : SolvesFinely rnd g u β Δ) (hfine : FineBy rnd u 0 (crossError u β Δ L R) L) (hsort : ∀ l, IsStdSort l (sort l))
  (hd : dst.Has dp) (hs : src.Has sp)
  (hc : ∀ i < dst.numCells, ∀ j < src.numCells, SafeCells u β Δ L R (exactCell dst dp i) (exactCell src sp j))
include hf hfine hsort hd hs hc

omit hfine hsort hd hs in
theorem exactX_eq {ge : Gels ℝ} (hge : GelsContract ge) {i j : Nat} (hi : i < dst.numCells) (hj : j < src.numCells) (k l : Fin 4) :
    exactX dp sp (sortPair (dst.cellNode i k) (dst.cellNode i (k + 1)), sortPair (src.cellNode j l) (src.cellNode j (l + 1))) =
      edgeX ge (exactCell dst dp i k) (exactCell dst dp i (k + 1)) (exactCell src sp j l) (exactCell src sp j (l + 1)) := by
  apply crossingOf_eq
  intro p
  rw [isX_sort]
  exact edgeX_safe hge hf.shape.le ((hc i hi j hj).safe.edges k l)

omit hsort hd hs in
/-- The points of a pair of cells. -/
theorem pair_near {i j : Nat} (hi : i < dst.numCells) (hj : j < src.numCells) {w : Work (Fl rnd)} (hr : Ready w.1.slvr)
    (hw : CacheNear g dp sp (dst.cellQuad dp) (src.cellQuad sp) (crossError u β Δ L R) (exactX dp sp) w.2) :
    ∃ sl c pts, pairStep g i j (dst.cellNode i) (dst.cellQuad dp i) (src.cellNode j) (src.cellQuad sp j) w = .ok (w.1.put sl pts, c) ∧
      Ready sl ∧ CacheNear g dp sp (dst.cellQuad dp) (src.cellQuad sp) (crossError u β Δ L R) (exactX dp sp) c ∧
      List.Forall₂ (NearPt (crossError u β Δ L R)) pts (pairPoints refGels (exactCell dst dp i) (exactCell src sp j)) := by
  have hge := refGels_contract (K := ℝ)
  have hcc := hc i hi j hj
  have hX := exactX_eq hf hc hge hi hj
  refine pairStep_near hf.stable.sizes hr hw refGels (fun _ => rfl) (fun _ => rfl) ?_ hX ?_ ?_
  · intro k l
    rw [hX]
    exact edgeX_near hf hge ⟨(hcc.sized k k).1, (hcc.sized k k).2.1⟩ (hcc.sized (k + 1) k).2.2 (hcc.safe.edges k l)
  · exact nodesIn_near hf hge hfine.near hcc.safe.shaped2 hcc.safe.nodes12
  · exact nodesIn_near hf hge hfine.near hcc.safe.shaped1 hcc.safe.nodes21

/-- The invariant of the loops. -/
def WorkNear (g : Gels (Fl rnd)) (dst src : Grid (Fl rnd)) (dp sp : Nat → Pt (Fl rnd)) (ρ : ℝ) (w : Work (Fl rnd)) : Prop :=
  Ready w.1.slvr ∧ CacheNear g dp sp (dst.cellQuad dp) (src.cellQuad sp) ρ (exactX dp sp) w.2

omit hd in
theorem srcStep_near {i j : Nat} (hi : i < dst.numCells) (hj : j < src.numCells) {dstArea : Fl rnd}
    (ha : |dstArea.val - area (quadRegion (exactCell dst dp i))| ≤
      overlapError u (crossError u β Δ L R) L (area (quadRegion (exactCell dst dp i))))
    {w w' : Work (Fl rnd)} {l l' : List (Nat × Fl rnd)} (hw : WorkNear g dst src dp sp (crossError u β Δ L R) w)
    (hl : CellNear (cellError u β Δ L R (exactCell dst dp i)) (exactCell dst dp i) (exactCell src sp) j l)
    (h : srcStep g sort .keptBuffer src i (dst.cellNode i) (dst.cellQuad dp i) dstArea j (w, l) = .ok (w', l')) :
    WorkNear g dst src dp sp (crossError u β Δ L R) w' ∧
      CellNear (cellError u β Δ L R (exactCell dst dp i)) (exactCell dst dp i) (exactCell src sp) (j + 1) l' := by
  have hge := refGels_contract (K := ℝ)
  have hcc := hc i hi j hj
  -- a round without a new entry
  have keep : area (quadRegion (exactCell dst dp i) ∩ quadRegion (exactCell src sp j)) = 0 →
      CellNear (cellError u β Δ L R (exactCell dst dp i)) (exactCell dst dp i) (exactCell src sp) (j + 1) l := by
    intro h0
    refine ⟨hl.sorted, fun e he => (hl.lt e he).trans (Nat.lt_succ_self _), hl.weight, ?_⟩
    intro j' hj' hno
    rcases Nat.lt_succ_iff_lt_or_eq.mp hj' with h' | rfl
    · exact hl.none j' h' hno
    · exact h0
  unfold srcStep at h
  rw [src.quadCoord_ok sp hs hj] at h
  simp only [bind, Except.bind, pure, Except.pure, Isect.checkIfBoxesOverlap, Isect.setQuadPoints] at h
  cases hb : boxesOverlap (dst.cellQuad dp i) (src.cellQuad sp j) with
  | false =>
    rw [hb] at h
    cases h
    refine ⟨hw, keep (pair_boxes ?_)⟩
    rw [boxesOverlap_val] at hb
    exact hb
  | true =>
    obtain ⟨sl, c, pts, e, r, k, hn⟩ := pair_near hf hfine hc hi hj
      (w := (({ w.1.reset with quad1 := some (dst.cellQuad dp i), quad2 := some (src.cellQuad sp j) } : Isect (Fl rnd)), w.2)) hw.1 hw.2
    have hp : ({ w.1.reset with quad1 := some (dst.cellQuad dp i), quad2 := some (src.cellQuad sp j) } : Isect (Fl rnd)).put sl pts =
        { slvr := sl, quad1 := some (dst.cellQuad dp i), quad2 := some (src.cellQuad sp j), pts := pts } := by
      simp [Isect.put, Isect.reset]
    rw [hp] at e
    rw [hb] at h
    simp only [if_true, e] at h
    by_cases h3 : 3 ≤ pts.length
    · simp only [if_pos h3] at h
      cases hha : hullArea .keptBuffer (sort pts) with
      | error e => rw [hha] at h; cases h
      | ok a =>
        rw [hha] at h
        cases h
        have hv := pair_area_near hf hfine hsort hge hcc hn hha
        refine ⟨⟨r, k⟩, ?_, ?_, ?_, ?_⟩
        · refine List.pairwise_append.mpr ⟨hl.sorted, by simp, ?_⟩
          intro e he e' he'
          rw [List.mem_singleton] at he'
          subst he'
          exact hl.lt e he
        · intro e he
          rcases List.mem_append.mp he with he | he
          · exact (hl.lt e he).trans (Nat.lt_succ_self _)
          · rw [List.mem_singleton] at he; subst he; exact Nat.lt_succ_self _
        · intro e he
          rcases List.mem_append.mp he with he | he
          · exact hl.weight e he
          · rw [List.mem_singleton] at he; subst he
            exact quotient_near hf.rounds (area_nonneg _) (area_inter_le _ _) hv ha hcc.big
        · intro j' hj' hno
          rcases Nat.lt_succ_iff_lt_or_eq.mp hj' with h' | rfl
          · exact hl.none j' h' fun w hw => hno w (List.mem_append_left _ hw)
          · exact absurd (List.mem_append_right _ (List.mem_singleton.mpr rfl)) (hno _)
    · simp only [if_neg h3] at h
      cases h
      exact ⟨⟨r, k⟩, keep (pair_small_near hf hge hcc (by rw [← hn.length_eq]; exact h3))⟩

theorem dstStep_near (hn : 0 < src.numCells) {i : Nat} (hi : i < dst.numCells) {w w' : Work (Fl rnd)} {t t' : Table (Fl rnd)}
    (hw : WorkNear g dst src dp sp (crossError u β Δ L R) w)
    (ht : TableNear (fun i => cellError u β Δ L R (exactCell dst dp i)) (exactCell dst dp) (exactCell src sp) i src.numCells t)
    (h : dstStep g sort .keptBuffer src dst i (w, t) = .ok (w', t')) :
    WorkNear g dst src dp sp (crossError u β Δ L R) w' ∧
      TableNear (fun i => cellError u β Δ L R (exactCell dst dp i)) (exactCell dst dp) (exactCell src sp) (i + 1) src.numCells t' := by
  unfold dstStep at h
  rw [dst.quadCoord_ok dp hd hi] at h
  simp only [bind, Except.bind, pure, Except.pure] at h
  obtain ⟨a, ea, ha⟩ := cell_area_near hf hfine hsort (hc i hi 0 hn) (q := dst.cellQuad dp i) rfl
  rw [ea] at h
  simp only at h
  cases hl : forN src.numCells (w, ([] : List (Nat × Fl rnd))) (srcStep g sort .keptBuffer src i (dst.cellNode i) (dst.cellQuad dp i) a) with
  | error e => rw [hl] at h; cases h
  | ok r =>
    obtain ⟨w1, l⟩ := r
    rw [hl] at h
    simp only [Except.ok.injEq, Prod.mk.injEq] at h
    obtain ⟨rfl, rfl⟩ := h
    obtain ⟨hw1, hcell⟩ := forN_inv_ok (fun j (s : Work (Fl rnd) × List (Nat × Fl rnd)) =>
        WorkNear g dst src dp sp (crossError u β Δ L R) s.1 ∧
        CellNear (cellError u β Δ L R (exactCell dst dp i)) (exactCell dst dp i) (exactCell src sp) j s.2) _ _ _ _
      ⟨hw, ⟨List.Pairwise.nil, by intro e he; (cases he), by intro e he; (cases he), by intro j hj; omega⟩⟩
      (by
        rintro j ⟨w, l⟩ ⟨w', l'⟩ hj ⟨h1, h2⟩ h
        exact srcStep_near hf hfine hsort hs hc hi hj ha h1 h2 h) hl
    refine ⟨hw1, ?_⟩
    cases l with
    | nil =>
      simp only [List.length_nil, lt_irrefl, if_false]
      refine ⟨ht.sorted, fun e he => (ht.lt e he).trans (Nat.lt_succ_self _), ht.nonempty, ht.cell, ?_⟩
      intro i' hi' hno
      rcases Nat.lt_succ_iff_lt_or_eq.mp hi' with h' | rfl
      · exact ht.none i' h' hno
      · exact hcell
    | cons x l =>
      rw [if_pos (by simp), insert_last ht.lt]
      refine ⟨?_, ?_, ?_, ?_, ?_⟩
      · refine List.pairwise_append.mpr ⟨ht.sorted, by simp, ?_⟩
        intro e he e' he'
        rw [List.mem_singleton] at he'
        subst he'
        exact ht.lt e he
      · intro e he
        rcases List.mem_append.mp he with he | he
        · exact (ht.lt e he).trans (Nat.lt_succ_self _)
        · rw [List.mem_singleton] at he; subst he; exact Nat.lt_succ_self _
      · intro e he
        rcases List.mem_append.mp he with he | he
        · exact ht.nonempty e he
        · rw [List.mem_singleton] at he; subst he; simp
      · intro e he
        rcases List.mem_append.mp he with he | he
        · exact ht.cell e he
        · rw [List.mem_singleton] at he; subst he; exact hcell
      · intro i' hi' hno
        rcases Nat.lt_succ_iff_lt_or_eq.mp hi' with h' | rfl
        · exact ht.none i' h' fun w hw => hno w (List.mem_append_left _ hw)
        · exact absurd (List.mem_append_right _ (List.mem_singleton.mpr rfl)) (hno _)

/-- The table of an object without weights. -/
theorem computeWeights_near (hn : 0 < src.numCells) (o o' : Interp (Fl rnd)) (h1 : o.dst = some dst) (h2 : o.src = some src)
    (h0 : o.weights = []) (h : o.computeWeights g sort .keptBuffer = .ok o') :
    TableNear (fun i => cellError u β Δ L R (exactCell dst dp i)) (exactCell dst dp) (exactCell src sp) dst.numCells src.numCells
      o'.weights := by
  unfold Interp.computeWeights at h
  rw [h1, h2, h0] at h
  simp only [bind, Except.bind, pure, Except.pure] at h
  cases hl : forN dst.numCells ((Isect.new, Cache.empty), ([] : Table (Fl rnd))) (dstStep g sort .keptBuffer src dst) with
  | error e => rw [hl] at h; cases h
  | ok r =>
    rw [hl] at h
    cases h
    exact (forN_inv_ok (fun i (s : Work (Fl rnd) × Table (Fl rnd)) => WorkNear g dst src dp sp (crossError u β Δ L R) s.1 ∧
        TableNear (fun i => cellError u β Δ L R (exactCell dst dp i)) (exactCell dst dp) (exactCell src sp) i src.numCells s.2) _ _ _ _
      ⟨⟨ready_new, cacheNear_empty _ _ _ _ _ _ _⟩,
        ⟨List.Pairwise.nil, by intro e he; (cases he), by intro e he; (cases he), by intro e he; (cases he), by intro j hj; omega⟩⟩
      (by
        rintro i ⟨w, t⟩ ⟨w', t'⟩ hi ⟨h1, h2⟩ h
        exact dstStep_near hf hfine hsort hd hs hc hn hi h1 h2 h) hl).2

/-- Weights are returned if cells overlap in a positive area or have boxes that are apart. -/
theorem computeWeights_exists (hn : 0 < src.numCells)
    (hover : ∀ i < dst.numCells, ∀ j < src.numCells, 0 < area (quadRegion (exactCell dst dp i) ∩ quadRegion (exactCell src sp j)) ∨
      boxesOverlap (exactCell dst dp i) (exactCell src sp j) = false)
    (o : Interp (Fl rnd)) (h1 : o.dst = some dst) (h2 : o.src = some src) : ∃ o', o.computeWeights g sort .keptBuffer = .ok o' := by
  have hge := refGels_contract (K := ℝ)
  unfold Interp.computeWeights
  rw [h1, h2]
  simp only [bind, Except.bind, pure, Except.pure]
  obtain ⟨r, er, -⟩ := forN_inv (fun _ (s : Work (Fl rnd) × Table (Fl rnd)) => WorkNear g dst src dp sp (crossError u β Δ L R) s.1)
    (dstStep g sort .keptBuffer src dst) dst.numCells ((Isect.new, Cache.empty), o.weights)
    ⟨ready_new, cacheNear_empty _ _ _ _ _ _ _⟩ (by
      rintro i ⟨w, t⟩ hi hw
      unfold dstStep
      rw [dst.quadCoord_ok dp hd hi]
      simp only [bind, Except.bind, pure, Except.pure]
      obtain ⟨a, ea, ha⟩ := cell_area_near hf hfine hsort (hc i hi 0 hn) (q := dst.cellQuad dp i) rfl
      rw [ea]
      simp only
      obtain ⟨r, er, hr⟩ := forN_inv (fun _ (s : Work (Fl rnd) × List (Nat × Fl rnd)) => WorkNear g dst src dp sp (crossError u β Δ L R) s.1)
        (srcStep g sort .keptBuffer src i (dst.cellNode i) (dst.cellQuad dp i) a) src.numCells (w, []) hw (by
          rintro j ⟨w, l⟩ hj hw
          unfold srcStep
          rw [src.quadCoord_ok sp hs hj]
          simp only [bind, Except.bind, pure, Except.pure, Isect.checkIfBoxesOverlap, Isect.setQuadPoints]
          cases hb : boxesOverlap (dst.cellQuad dp i) (src.cellQuad sp j) with
          | false => exact ⟨_, rfl, hw⟩
          | true =>
            obtain ⟨sl, c, pts, e, r, k, hn⟩ := pair_near hf hfine hc hi hj
              (w := (({ w.1.reset with quad1 := some (dst.cellQuad dp i), quad2 := some (src.cellQuad sp j) } : Isect (Fl rnd)), w.2))
              hw.1 hw.2
            have hp : ({ w.1.reset with quad1 := some (dst.cellQuad dp i), quad2 := some (src.cellQuad sp j) } :
                Isect (Fl rnd)).put sl pts =
                { slvr := sl, quad1 := some (dst.cellQuad dp i), quad2 := some (src.cellQuad sp j), pts := pts } := by
              simp [Isect.put, Isect.reset]
            rw [hp] at e
            simp only [if_true, e]
            by_cases h3 : 3 ≤ pts.length
            · simp only [if_pos h3]
              have hpos : 0 < area (quadRegion (exactCell dst dp i) ∩ quadRegion (exactCell src sp j)) := by
                rcases hover i hi j hj with h | h
                · exact h
                · rw [boxesOverlap_val] at hb
                  rw [show boxesOverlap (exactCell dst dp i) (exactCell src sp j) = true from hb] at h
                  cases h
              obtain ⟨a', ea'⟩ := pair_area_exists hf hfine hsort hge (hc i hi j hj) hn hpos
              rw [ea']
              exact ⟨_, rfl, r, k⟩
            · simp only [if_neg h3]
              exact ⟨_, rfl, r, k⟩)
      rw [er]
      exact ⟨_, rfl, hr⟩)
  rw [er]
  exact ⟨_, rfl⟩

end table

end Sg.Conserve
