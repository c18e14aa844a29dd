import Verif.Proof.FlowRounded
import Verif.Props.CollectRounding
/-
Property C115: the projections of the edge basis functions of a quadrilateral on a segment in rounded arithmetic.
-/
namespace Sg.Props
open Sg Sg.QuadIntersect Sg.QuadFlows Sg.LinearSolve Sg.Triangulate Sg.FindPoint Sg.Spec

variable {rnd : ℝ → ℝ} {g : Gels (Fl rnd)} {u β Δ ρ L R : ℝ}

/-! ### Histories -/

theorem findIndices_flQuad (hg : FindPoint.KeepsSizes g) {q : Quad (Fl rnd)} {f f' : Finder (Fl rnd) 2} (h : FlQuad q f) (p c x)
    (e : findIndices g f p = .ok (c, x, f')) : FlQuad q f' := by
  have hs := findIndices_frame g f f' p c x e
  unfold findIndices at e
  obtain ⟨r, h1, e⟩ := bind_ok_inv e
  simp only [pure, Except.pure, Except.ok.injEq, Prod.mk.injEq] at e
  have hr := (NodeInterp.loop_frame g hg (by norm_num) _ _ r.1 r.2 (FindPoint.ready_reset f _ _ h.ready) h1).1
  rw [e.2.2] at hr
  exact h.same hr hs

theorem flowsAfter_flQuad (hg : FindPoint.KeepsSizes g) {q : Quad (Fl rnd)} {s0 s : Flows (Fl rnd)} (h0 : FlowsReached g s0)
    (h : FlowsAfter g (s0.setQuadPoints q) s) : FlQuad q s.finder := by
  obtain ⟨os, ho, e⟩ := h
  have key : ∀ (os : List (FlowOp (Fl rnd))) (s s' : Flows (Fl rnd)), FlQuad q s.finder → (∀ o ∈ os, ∀ q, o ≠ FlowOp.setQuad q) →
      runFlows g s os = .ok s' → FlQuad q s'.finder := by
    intro os
    induction os with
    | nil => intro s s' h _ e; cases e; exact h
    | cons o os ih =>
      intro s s' h ho e
      unfold runFlows at e
      obtain ⟨s1, h1, e⟩ := bind_ok_inv e
      refine ih s1 s' ?_ (fun x hx => ho x (List.mem_cons_of_mem _ hx)) e
      cases o with
      | setQuad q' => exact absurd rfl (ho _ (List.mem_cons_self ..) q')
      | setLine a b => cases h1; exact h
      | compute =>
        obtain ⟨⟨s2, c⟩, h2, h1⟩ := bind_ok_inv h1
        cases h1
        unfold Flows.computeProjections at h2
        obtain ⟨⟨s3, r⟩, h3, h2⟩ := bind_ok_inv h2
        simp only [pure, Except.pure, Except.ok.injEq, Prod.mk.injEq] at h2
        rw [← h2.1]
        unfold Flows.computeStartEndLineIndices at h3
        split at h3
        · simp only [Except.ok.injEq, Prod.mk.injEq] at h3
          rw [← h3.1]; exact h
        · obtain ⟨⟨ca, xa, fa⟩, ha, h3⟩ := bind_ok_inv h3
          obtain ⟨⟨cb, xb, fb⟩, hb, h3⟩ := bind_ok_inv h3
          simp only [pure, Except.pure, Except.ok.injEq, Prod.mk.injEq] at h3
          rw [← h3.1]
          exact findIndices_flQuad hg (findIndices_flQuad hg h _ _ _ ha) _ _ _ hb
  exact key os _ _ (flQuad_set (flowsReached_finder g h0)) ho e

/-! ### Projections from indices -/

theorem projAt_potential (xa xb : Fin 2 → ℝ) (v : Fin 4 → ℝ) : flowDot (projAt xa xb) (edgeDiff v) = bilin v xb - bilin v xa := by
  unfold flowDot projAt edgeDiff bilin
  dsimp only
  ring

theorem product_near {d m d' m' δ μ : ℝ} (hd : |d| ≤ 1) (hm : |m| ≤ 1) (h1 : |d' - d| ≤ δ) (h2 : |m' - m| ≤ μ) :
    |d' * m' - d * m| ≤ δ + μ + δ * μ := by
  have e : d' * m' - d * m = (d' - d) * m + d * (m' - m) + (d' - d) * (m' - m) := by ring
  rw [e]
  have hδ := (abs_nonneg _).trans h1
  have t1 : |(d' - d) * m| ≤ δ * 1 := by rw [abs_mul]; exact mul_le_mul h1 hm (abs_nonneg _) hδ
  have t2 : |d * (m' - m)| ≤ 1 * μ := by rw [abs_mul]; exact mul_le_mul hd h2 (abs_nonneg _) zero_le_one
  have t3 : |(d' - d) * (m' - m)| ≤ δ * μ := by rw [abs_mul]; exact mul_le_mul h1 h2 (abs_nonneg _) hδ
  have := abs_add_three ((d' - d) * m) (d * (m' - m)) ((d' - d) * (m' - m))
  linarith

/-- The four projections from given indices: the error of the last three lines. -/
theorem proj_round (hr : Rounds rnd u 0) (hN : KeepsInts rnd 2) (half : rnd (1 / 2) = 1 / 2) (hu : u ≤ 1 / 10 ^ 14) (xa xb : Fin 2 → Fl rnd)
    (ha : InCell (vals xa)) (hb : InCell (vals xb)) (e : Fin 4) : |(projOf xa xb e).val - projAt (vals xa) (vals xb) e| ≤ 8 * u := by
  have hu0 := hr.rel
  have h2 : rnd (1 + 1) = 2 := by have := hN.int 2 le_rfl; norm_num at this ⊢; exact this
  have hh : ((1 : Fl rnd) / (1 + 1)).val = 1 / 2 := by show rnd (1 / rnd (1 + 1)) = 1 / 2; rw [h2, half]
  have hv : ∀ k, 0 ≤ (xa k).val ∧ (xa k).val ≤ 1 ∧ 0 ≤ (xb k).val ∧ (xb k).val ≤ 1 := fun k => ⟨(ha k).1, (ha k).2, (hb k).1, (hb k).2⟩
  have near : ∀ {x y S δ : ℝ}, |y - x| ≤ δ → |x| ≤ S → |rnd y - x| ≤ δ + u * (S + δ) := by
    intro x y S δ h1 h3
    have a1 := rnd_near hr y
    have a2 : |y| ≤ S + δ := by
      have := abs_add_le x (y - x); rw [add_sub_cancel] at this; linarith
    have a3 := mul_le_mul_of_nonneg_left a2 hu0
    have := abs_sub_le (rnd y) y x
    linarith
  have diff : ∀ k, |(xb k - xa k).val - ((xb k).val - (xa k).val)| ≤ u ∧ |(xb k).val - (xa k).val| ≤ 1 := by
    intro k
    obtain ⟨a0, a1, b0, b1⟩ := hv k
    have h1 : |(xb k).val - (xa k).val| ≤ 1 := by rw [abs_le]; constructor <;> linarith
    refine ⟨?_, h1⟩
    have := near (x := (xb k).val - (xa k).val) (y := (xb k).val - (xa k).val) (δ := 0) (by simp) h1
    rw [Fl.sub_val]
    linarith
  have mid : ∀ k, |((1 : Fl rnd) / (1 + 1) * (xa k + xb k)).val - ((xa k).val + (xb k).val) / 2| ≤ 3 * u ∧
      |((xa k).val + (xb k).val) / 2| ≤ 1 ∧ |1 - ((xa k).val + (xb k).val) / 2| ≤ 1 := by
    intro k
    obtain ⟨a0, a1, b0, b1⟩ := hv k
    have hm : |((xa k).val + (xb k).val) / 2| ≤ 1 := by rw [abs_le]; constructor <;> linarith
    refine ⟨?_, hm, by rw [abs_le]; constructor <;> linarith⟩
    have h1 := near (x := (xa k).val + (xb k).val) (y := (xa k).val + (xb k).val) (S := 2) (δ := 0) (by simp) (by rw [abs_le]; constructor <;> linarith)
    have h3 : |1 / 2 * rnd ((xa k).val + (xb k).val) - ((xa k).val + (xb k).val) / 2| ≤ u := by
      rw [show 1 / 2 * rnd ((xa k).val + (xb k).val) - ((xa k).val + (xb k).val) / 2 =
        1 / 2 * (rnd ((xa k).val + (xb k).val) - ((xa k).val + (xb k).val)) by ring, abs_mul, abs_of_pos (by norm_num : (0 : ℝ) < 1 / 2)]
      linarith
    have h4 := near h3 hm
    rw [Fl.mul_val, hh, Fl.add_val]
    nlinarith
  have co : ∀ k, |(1 - (1 : Fl rnd) / (1 + 1) * (xa k + xb k)).val - (1 - ((xa k).val + (xb k).val) / 2)| ≤ 5 * u := by
    intro k
    obtain ⟨m1, m2, m3⟩ := mid k
    rw [Fl.sub_val]
    have := near (x := 1 - ((xa k).val + (xb k).val) / 2) (y := 1 - ((1 : Fl rnd) / (1 + 1) * (xa k + xb k)).val) (δ := 3 * u)
      (by rw [show (1 : ℝ) - ((1 : Fl rnd) / (1 + 1) * (xa k + xb k)).val - (1 - ((xa k).val + (xb k).val) / 2) =
        -(((1 : Fl rnd) / (1 + 1) * (xa k + xb k)).val - ((xa k).val + (xb k).val) / 2) by ring, abs_neg]; exact m1) m3
    refine le_trans this ?_
    nlinarith
  have fin : ∀ {d m : Fl rnd} {d' m' : ℝ}, |d.val - d'| ≤ u → |d'| ≤ 1 → |m.val - m'| ≤ 5 * u → |m'| ≤ 1 → |(d * m).val - d' * m'| ≤ 8 * u := by
    intro d m d' m' h1 h3 h4 h5
    have p1 := product_near h3 h5 h1 h4
    have p2 : |d' * m'| ≤ 1 := by rw [abs_mul]; exact mul_le_one₀ h3 (abs_nonneg _) h5
    rw [Fl.mul_val]
    refine (near p1 p2).trans ?_
    have k1 : u * u ≤ u * (1 / 100) := mul_le_mul_of_nonneg_left (hu.trans (by norm_num)) hu0
    have k2 : u * u * u ≤ u * (1 / 100) * u := mul_le_mul_of_nonneg_right k1 hu0
    linarith
  have m5 : ∀ k, |((1 : Fl rnd) / (1 + 1) * (xa k + xb k)).val - ((xa k).val + (xb k).val) / 2| ≤ 5 * u := fun k => (mid k).1.trans (by linarith)
  match e with
  | 0 => exact fin (diff 0).1 (diff 0).2 (co 1) (mid 1).2.2
  | 1 => exact fin (diff 0).1 (diff 0).2 (m5 1) (mid 1).2.1
  | 2 => exact fin (diff 1).1 (diff 1).2 (co 0) (mid 0).2.2
  | 3 => exact fin (diff 1).1 (diff 1).2 (m5 0) (mid 0).2.1

/-- Nearby positions have nearby projections. -/
theorem projAt_near {xa xb ya yb : Fin 2 → ℝ} {ε : ℝ} (ha : InCell xa) (hb : InCell xb) (ha' : InCell ya) (hb' : InCell yb)
    (h1 : ∀ k, |ya k - xa k| ≤ ε) (h2 : ∀ k, |yb k - xb k| ≤ ε) (e : Fin 4) : |projAt ya yb e - projAt xa xb e| ≤ 3 * ε := by
  have hε := (abs_nonneg _).trans (h1 0)
  have fin : ∀ {d m d' m' : ℝ}, |d' - d| ≤ 2 * ε → |m' - m| ≤ ε → |d| ≤ 1 → |m'| ≤ 1 → |d' * m' - d * m| ≤ 3 * ε := by
    intro d m d' m' h1 h2 h3 h4
    have e : d' * m' - d * m = (d' - d) * m' + d * (m' - m) := by ring
    rw [e]
    have t1 : |(d' - d) * m'| ≤ 2 * ε * 1 := by rw [abs_mul]; exact mul_le_mul h1 h4 (abs_nonneg _) (by linarith)
    have t2 : |d * (m' - m)| ≤ 1 * ε := by rw [abs_mul]; exact mul_le_mul h3 h2 (abs_nonneg _) zero_le_one
    have := abs_add_le ((d' - d) * m') (d * (m' - m))
    linarith
  have D : ∀ k, |yb k - ya k - (xb k - xa k)| ≤ 2 * ε ∧ |xb k - xa k| ≤ 1 ∧ |(ya k + yb k) / 2 - (xa k + xb k) / 2| ≤ ε ∧ |(ya k + yb k) / 2| ≤ 1 ∧
      |1 - (ya k + yb k) / 2 - (1 - (xa k + xb k) / 2)| ≤ ε ∧ |1 - (ya k + yb k) / 2| ≤ 1 := by
    intro k
    have a1 := abs_le.mp (h1 k)
    have a2 := abs_le.mp (h2 k)
    obtain ⟨b1, b2⟩ := ha k
    obtain ⟨b3, b4⟩ := hb k
    obtain ⟨b5, b6⟩ := ha' k
    obtain ⟨b7, b8⟩ := hb' k
    refine ⟨?_, ?_, ?_, ?_, ?_, ?_⟩ <;> rw [abs_le] <;> constructor <;> linarith [a1.1, a1.2, a2.1, a2.2]
  obtain ⟨c1, c2, c3, c4, c5, c6⟩ := D 0
  obtain ⟨d1, d2, d3, d4, d5, d6⟩ := D 1
  match e with
  | 0 => exact fin c1 d5 c2 d6
  | 1 => exact fin c1 d3 c2 d4
  | 2 => exact fin d1 c5 d2 c6
  | 3 => exact fin d1 c3 d2 c4

theorem flowDot_near {p p' w : Fin 4 → ℝ} {ε : ℝ} (h : ∀ e, |p' e - p e| ≤ ε) : |flowDot p' w - flowDot p w| ≤ ε * (|w 0| + |w 1| + |w 2| + |w 3|) := by
  unfold flowDot
  have e : p' 0 * w 0 + p' 1 * w 1 + p' 2 * w 2 + p' 3 * w 3 - (p 0 * w 0 + p 1 * w 1 + p 2 * w 2 + p 3 * w 3) =
    (p' 0 - p 0) * w 0 + (p' 1 - p 1) * w 1 + (p' 2 - p 2) * w 2 + (p' 3 - p 3) * w 3 := by ring
  rw [e]
  have t : ∀ i, |(p' i - p i) * w i| ≤ ε * |w i| := fun i => by rw [abs_mul]; exact mul_le_mul_of_nonneg_right (h i) (abs_nonneg _)
  have t0 := abs_add_le ((p' 0 - p 0) * w 0 + (p' 1 - p 1) * w 1 + (p' 2 - p 2) * w 2) ((p' 3 - p 3) * w 3)
  have t1 := abs_add_three ((p' 0 - p 0) * w 0) ((p' 1 - p 1) * w 1) ((p' 2 - p 2) * w 2)
  linarith [t 0, t 1, t 2, t 3]

/-! ### C115 -/

/-- **C115** For a parallelogram and a segment in it, in rounded arithmetic, after any calls on the object: the code is 0, and each projection is near the
integral of the basis function of the edge between the index positions `xa`, `xb` of the ends of the segment; hence the flow of every potential is near
the difference of its interpolants at the ends.  The ends are known up to `ρ`. -/
theorem C115_parallelogram_partial (h : SearchesFinely rnd g u β Δ ρ L R) (q : Quad (Fl rnd)) (hc : FairCell Δ L R (valQuad q)) (s0 s : Flows (Fl rnd))
    (h0 : FlowsReached g s0) (hs : FlowsAfter g (s0.setQuadPoints q) s) (a b : Pt (Fl rnd)) (xa xb : Fin 2 → ℝ) (ha : InCell xa) (hb : InCell xb)
    (hpa : NearPt ρ a (pointAt (valQuad q) xa)) (hpb : NearPt ρ b (pointAt (valQuad q) xb)) :
    ∃ p, project g s a b = .ok (0, p) ∧ (∀ e, |(p e).val - projAt xa xb e| ≤ projError u (indexError u β Δ ρ L R)) ∧
      ∀ v, |flowDot (fun e => (p e).val) (edgeDiff v) - (bilin v xb - bilin v xa)| ≤
        projError u (indexError u β Δ ρ L R) * (|v 1 - v 0| + |v 2 - v 3| + |v 3 - v 0| + |v 2 - v 1|) := by
  have hq := flowsAfter_flQuad h.stable.sizes h0 hs
  have near : ∀ {p : Pt (Fl rnd)} {x : Fin 2 → ℝ}, NearPt ρ p (pointAt (valQuad q) x) → ∀ k, |(comp p k).val - bilin (axisVals q k) x| ≤ ρ := by
    intro p x hp k
    match k with
    | 0 => exact hp.1
    | 1 => exact hp.2
  obtain ⟨da, fa, e1, q1, i1, n1⟩ := find_fl h hc hq a xa ha (near hpa)
  obtain ⟨db, fb, e2, q2, i2, n2⟩ := find_fl h hc q1 b xb hb (near hpb)
  have hp : ∀ e, |(projOf da db e).val - projAt xa xb e| ≤ projError u (indexError u β Δ ρ L R) := by
    intro e
    have a1 := proj_round h.rounds ⟨h.ints.mono, fun k hk => h.ints.int k (by omega)⟩ h.half h.unit da db i1 i2 e
    have a2 := projAt_near ha hb i1 i2 n1 n2 e
    have := abs_sub_le (projOf da db e).val (projAt (vals da) (vals db) e) (projAt xa xb e)
    unfold projError
    linarith
  refine ⟨projOf da db, (project_eq g s a b _ _ _ _ _ _ e1 e2).1, hp, fun v => ?_⟩
  rw [← projAt_potential]
  exact flowDot_near hp

/-- One search, whatever the quadrilateral. -/
theorem find_any (hr : Rounds rnd u 0) (hN : KeepsInts rnd 10000000000) (half : rnd (1 / 2) = 1 / 2) (hu : u ≤ 1 / 10 ^ 14)
    (hg : FindPoint.KeepsSizes g) {q : Quad (Fl rnd)} (hR : ∀ i, |(q i).1.val| ≤ R ∧ |(q i).2.val| ≤ R) {f : Finder (Fl rnd) 2} (hf : FlQuad q f)
    (p : Pt (Fl rnd)) : ∃ c d f', findIndices g f p = .ok (c, d, f') ∧ FlQuad q f' ∧ InCell (vals d) ∧
      (c = 1 → |(pointAt (valQuad q) (vals d)).1 - p.1.val| ≤ 11 / 10 ^ 11 + coordError u * R ∧
        |(pointAt (valQuad q) (vals d)).2 - p.2.val| ≤ 11 / 10 ^ 11 + coordError u * R) := by
  have h2 : rnd (1 + 1) = 2 := by have := hN.int 2 (by norm_num); norm_num at this ⊢; exact this
  have hh : ((1 : Fl rnd) / (1 + 1)).val = 1 / 2 := by show rnd (1 / rnd (1 + 1)) = 1 / 2; rw [h2, half]
  set s : Finder (Fl rnd) 2 := f.reset (fun _ => 1 / (1 + 1)) (comp p) with hs
  have hfs : FlQuad q s := ⟨hf.ready, hf.dims, hf.coords, hf.per, hf.nitermax, hf.tolpos, hf.bounds⟩
  have hin : InGrid s.dims (vals s.dIndices) := by
    rw [hfs.dims]
    refine inCell_inGrid fun k => ?_
    have : vals s.dIndices k = 1 / 2 := hh
    rw [this]
    norm_num
  obtain ⟨c, s', e, hi'⟩ := NodeInterp.loop_fl hN g hg (by norm_num) s.fuelOf s (hfs.grid (by norm_num)) hin
  obtain ⟨hr', hs', ht'⟩ := NodeInterp.loop_frame g hg (by norm_num) s.fuelOf s c s' hfs.ready e
  have hfi : findIndices g f p = .ok (c, s'.dIndices, s') := by
    show (searchLoop g s.fuelOf s >>= fun r => Except.ok (r.1, r.2.dIndices, r.2)) = _
    rw [e]; rfl
  have hq' := hfs.same hr' hs'
  rw [hq'.dims] at hi'
  refine ⟨c, s'.dIndices, s', hfi, hq', inGrid_inCell hi', ?_⟩
  rintro rfl
  obtain ⟨err, he, hlt⟩ := NodeInterp.loop_error g _ _ _ e
  have hR' : ∀ k i, |(comp (q i) k).val| ≤ R := by
    intro k i
    match k with
    | 0 => exact (hR i).1
    | 1 => exact (hR i).2
  have hpos : ∀ k, ∃ w, interp s'.dims s'.dIndices (s'.coords k) = .ok w ∧ |w.val - bilin (axisVals q k) (vals s'.dIndices)| ≤ coordError u * R := by
    intro k
    rw [hq'.dims, hq'.coords]
    exact interp_fl2 hr hN (by norm_num) _ (hR' k) _ hi'
  choose w hw1 hw2 using hpos
  have hgp : s'.getPosition = .ok w := forAxes_ok _ w hw1
  unfold Finder.getError at he
  rw [hgp] at he
  obtain rfl := Except.ok.inj he
  have htol : s.tolpos = flowTol := hfs.tolpos
  rw [htol] at hlt
  have hd := NodeInterp.distance_fl hr (by linarith) w s'.targetPoint (flowTol : Fl rnd).val hlt
  have hv : (flowTol : Fl rnd).val ≤ (1 + 1 / 10 ^ 14) * (1 / 10 ^ 10) := by
    show rnd (rnd ((1 : Nat) : ℝ) / rnd ((10000000000 : Nat) : ℝ)) ≤ _
    rw [hN.int 1 (by norm_num), hN.int 10000000000 le_rfl]
    have hn := rnd_near hr (((1 : Nat) : ℝ) / ((10000000000 : Nat) : ℝ))
    have hv : ((1 : Nat) : ℝ) / ((10000000000 : Nat) : ℝ) = 1 / 10 ^ 10 := by norm_num
    rw [hv, abs_of_pos (show (0 : ℝ) < 1 / 10 ^ 10 by norm_num), abs_le] at hn
    rw [hv]
    have e3 : u * (1 / 10 ^ 10) ≤ (1 : ℝ) / 10 ^ 14 * (1 / 10 ^ 10) := mul_le_mul_of_nonneg_right hu (by norm_num)
    linarith [hn.2]
  have h1u : (1 - 1 / 10 ^ 14 : ℝ) ^ 4 ≤ (1 - u) ^ 4 := pow_le_pow_left₀ (by norm_num) (by linarith) 4
  have hk : ∀ k, |bilin (axisVals q k) (vals s'.dIndices) - (comp p k).val| ≤ 11 / 10 ^ 11 + coordError u * R := by
    intro k
    have a1 := hd k
    have a2 := hw2 k
    have a3 : (s'.targetPoint k) = comp p k := by rw [ht']; rfl
    rw [a3] at a1
    have a4 : |(w k).val - (comp p k).val| ≤ 11 / 10 ^ 11 := by
      have b1 := mul_le_mul_of_nonneg_right h1u (abs_nonneg ((w k).val - (comp p k).val))
      have b2 : (1 - 1 / 10 ^ 14 : ℝ) ^ 4 * |(w k).val - (comp p k).val| ≤ (1 + 1 / 10 ^ 14) * (1 / 10 ^ 10) := by linarith
      have b3 : (99 : ℝ) / 100 ≤ (1 - 1 / 10 ^ 14) ^ 4 := by norm_num
      have b4 := mul_le_mul_of_nonneg_right b3 (abs_nonneg ((w k).val - (comp p k).val))
      have b5 : (99 : ℝ) / 100 * |(w k).val - (comp p k).val| ≤ (1 + 1 / 10 ^ 14) * (1 / 10 ^ 10) := b4.trans b2
      norm_num at b5 ⊢
      linarith
    rw [abs_le] at *
    constructor <;> linarith [a2.1, a2.2, a4.1, a4.2]
  exact ⟨hk 0, hk 1⟩

/-- **C115** For every quadrilateral, segment and solver, in rounded arithmetic, after any calls on the object: no call is undefined, the code is 0, 1 or 2,
and there are index positions `xa`, `xb` in the cell such that the flow of every potential is the difference of its interpolants at `xb` and `xa` up to
rounding.  Unless the code is 1 or 2 (2), the position of `xa` (of `xb`) is near the start (end) of the segment.  `R` bounds the coordinates of the nodes. -/
theorem C115_potential (hr : Rounds rnd u 0) (hN : KeepsInts rnd 10000000000) (half : rnd (1 / 2) = 1 / 2) (hu : u ≤ 1 / 10 ^ 14)
    (hg : FindPoint.KeepsSizes g) (q : Quad (Fl rnd)) (hR : ∀ i, |(q i).1.val| ≤ R ∧ |(q i).2.val| ≤ R) (s0 s : Flows (Fl rnd))
    (h0 : FlowsReached g s0) (hs : FlowsAfter g (s0.setQuadPoints q) s) (a b : Pt (Fl rnd)) :
    ∃ code p xa xb, project g s a b = .ok (code, p) ∧ (code = 0 ∨ code = 1 ∨ code = 2) ∧ InCell xa ∧ InCell xb ∧
      (∀ v, |flowDot (fun e => (p e).val) (edgeDiff v) - (bilin v xb - bilin v xa)| ≤ 8 * u * (|v 1 - v 0| + |v 2 - v 3| + |v 3 - v 0| + |v 2 - v 1|)) ∧
      (code = 0 → NearPt (11 / 10 ^ 11 + coordError u * R) a (pointAt (valQuad q) xa)) ∧
      (code ≠ 2 → NearPt (11 / 10 ^ 11 + coordError u * R) b (pointAt (valQuad q) xb)) := by
  have hq := flowsAfter_flQuad hg h0 hs
  obtain ⟨ca, da, fa, e1, q1, i1, n1⟩ := find_any hr hN half hu hg hR hq a
  obtain ⟨cb, db, fb, e2, q2, i2, n2⟩ := find_any hr hN half hu hg hR q1 b
  have hp := proj_round hr ⟨hN.mono, fun k hk => hN.int k (by omega)⟩ half hu da db i1 i2
  refine ⟨_, _, vals da, vals db, (project_eq g s a b _ _ _ _ _ _ e1 e2).1, ?_, i1, i2, fun v => ?_, ?_, ?_⟩
  · split_ifs <;> simp
  · rw [← projAt_potential]
    exact flowDot_near hp
  · intro hc
    have := n1 (by split_ifs at hc with h1 h2 <;> omega)
    exact ⟨by rw [abs_sub_comm]; exact this.1, by rw [abs_sub_comm]; exact this.2⟩
  · intro hc
    have := n2 (by by_contra hb; rw [if_pos hb] at hc; exact hc rfl)
    exact ⟨by rw [abs_sub_comm]; exact this.1, by rw [abs_sub_comm]; exact this.2⟩

/-! ### Double precision -/

/-- Errors in double precision. -/
theorem slope_double (h1 : 1 / 100 ≤ L) (h2 : L ≤ 100) :
    0 ≤ slopeError (2 ^ (-(53 : ℤ))) L 50 ∧ slopeError (2 ^ (-(53 : ℤ))) L 50 ≤ 15 / 10 ^ 14 ∧
      matrixError (2 ^ (-(53 : ℤ))) (2 ^ (-(52 : ℤ))) L 50 ≤ 18 / 10 ^ 14 ∧ 0 ≤ offsetError (2 ^ (-(53 : ℤ))) (1 / 10 ^ 15) L 50 ∧
      offsetError (2 ^ (-(53 : ℤ))) (1 / 10 ^ 15) L 50 ≤ 8 / 10 ^ 14 ∧ coordError (2 ^ (-(53 : ℤ))) * 50 ≤ 7 / 10 ^ 14 := by
  have hc : coordError (2 ^ (-(53 : ℤ))) * 50 ≤ 62 / 10 ^ 15 := by unfold coordError; norm_num
  have hc0 : 0 ≤ coordError (2 ^ (-(53 : ℤ))) * 50 := by unfold coordError; norm_num
  set c := coordError (2 ^ (-(53 : ℤ))) * 50
  have hs : slopeError (2 ^ (-(53 : ℤ))) L 50 = 2 * c + ((1 + 2 ^ (-(53 : ℤ))) ^ 2 - 1) * (L + 2 * c) := rfl
  have ho : offsetError (2 ^ (-(53 : ℤ))) (1 / 10 ^ 15) L 50 = 1 / 10 ^ 15 + c + 2 ^ (-(53 : ℤ)) * (L + 1 / 10 ^ 15 + c) := rfl
  have hm : matrixError (2 ^ (-(53 : ℤ))) (2 ^ (-(52 : ℤ))) L 50 =
    slopeError (2 ^ (-(53 : ℤ))) L 50 + 2 ^ (-(52 : ℤ)) * (L + slopeError (2 ^ (-(53 : ℤ))) L 50) := rfl
  have hs0 : 0 ≤ slopeError (2 ^ (-(53 : ℤ))) L 50 := by rw [hs]; norm_num; nlinarith
  have hs1 : slopeError (2 ^ (-(53 : ℤ))) L 50 ≤ 15 / 10 ^ 14 := by rw [hs]; norm_num; norm_num at hc; linarith
  refine ⟨hs0, hs1, ?_, ?_, ?_, hc.trans (by norm_num)⟩
  · rw [hm]; norm_num; norm_num at hs1; linarith
  · rw [ho]; norm_num; linarith
  · rw [ho]; norm_num; norm_num at hc; linarith

theorem index_double (h1 : 1 / 100 ≤ L) (h2 : L ≤ 100) :
    indexError (2 ^ (-(53 : ℤ))) (2 ^ (-(52 : ℤ))) (1 / 4) (1 / 10 ^ 15) L 50 ≤ 5 / 10 ^ 12 / L := by
  obtain ⟨s0, s1, m, o0, o, c⟩ := slope_double h1 h2
  have hL : 0 < L := by linarith
  unfold indexError
  set A := offsetError (2 ^ (-(53 : ℤ))) (1 / 10 ^ 15) L 50 + matrixError (2 ^ (-(53 : ℤ))) (2 ^ (-(52 : ℤ))) L 50
  have hA : A ≤ 26 / 10 ^ 14 := (add_le_add o m).trans (by norm_num)
  have e : (1 + 2 ^ (-(53 : ℤ))) * (4 * A / (1 / 4 * L)) + 2 ^ (-(53 : ℤ)) = ((1 + 2 ^ (-(53 : ℤ))) * 16 * A + 2 ^ (-(53 : ℤ)) * L) / L := by
    field_simp
    ring
  rw [e]
  refine div_le_div_of_nonneg_right ?_ hL.le
  norm_num
  norm_num at hA
  linarith

theorem searchesFinely_double {g : Gels (Fl (nearest 53))} (hg : GelsStable g (2 ^ (-(52 : ℤ)))) (h1 : 1 / 100 ≤ L) (h2 : L ≤ 100) :
    SearchesFinely (nearest 53) g (2 ^ (-(53 : ℤ))) (2 ^ (-(52 : ℤ))) (1 / 4) (1 / 10 ^ 15) L 50 where
  rounds := nearest_rounds 53
  ints := ⟨(nearest_ints 53 (by norm_num)).mono, fun k hk => (nearest_ints 53 (by norm_num)).int k (by omega)⟩
  half := nearest53_consts.half
  unit := by norm_num
  pos := by norm_num
  shape := by norm_num
  size := by linarith
  point := by norm_num
  stable := hg
  regular := by
    have := (slope_double h1 h2).2.2.1
    norm_num at this ⊢
    linarith
  found := by
    have hi := index_double h1 h2
    have hL : 0 < L := by linarith
    have h3 : L * indexError (2 ^ (-(53 : ℤ))) (2 ^ (-(52 : ℤ))) (1 / 4) (1 / 10 ^ 15) L 50 ≤ 5 / 10 ^ 12 := by
      have := mul_le_mul_of_nonneg_left hi hL.le
      rwa [mul_div_cancel₀ _ hL.ne'] at this
    have := (slope_double h1 h2).2.2.2.2.2
    norm_num at this h3 ⊢
    linarith
  inside := by norm_num

/-- **C115** in double precision: for a parallelogram with sides of length `L` (0.01 to 100), coordinates up to 50, an area of at least `L^2/4`, and a segment
in it, the ends being known up to 1e-15: the code is 0 and each projection is within `2e-11/L` of the exact one. -/
theorem C115_double (g : Gels (Fl (nearest 53))) (hg : GelsStable g (2 ^ (-(52 : ℤ)))) (h1 : 1 / 100 ≤ L) (h2 : L ≤ 100)
    (q : Quad (Fl (nearest 53))) (hc : FairCell (1 / 4) L 50 (valQuad q)) (s0 s : Flows (Fl (nearest 53))) (h0 : FlowsReached g s0)
    (hs : FlowsAfter g (s0.setQuadPoints q) s) (a b : Pt (Fl (nearest 53))) (xa xb : Fin 2 → ℝ) (ha : InCell xa) (hb : InCell xb)
    (hpa : NearPt (1 / 10 ^ 15) a (pointAt (valQuad q) xa)) (hpb : NearPt (1 / 10 ^ 15) b (pointAt (valQuad q) xb)) :
    ∃ p, project g s a b = .ok (0, p) ∧ ∀ e, |(p e).val - projAt xa xb e| ≤ 2 / 10 ^ 11 / L := by
  obtain ⟨p, e1, hp, -⟩ := C115_parallelogram_partial (searchesFinely_double hg h1 h2) q hc s0 s h0 hs a b xa xb ha hb hpa hpb
  refine ⟨p, e1, fun e => (hp e).trans ?_⟩
  have hi := index_double h1 h2
  have hL : 0 < L := by linarith
  unfold projError
  have h3 : (8 : ℝ) * 2 ^ (-(53 : ℤ)) ≤ 5 / 10 ^ 12 / L := by
    rw [le_div_iff₀ hL]
    norm_num
    linarith
  have h4 : 2 / 10 ^ 11 / L = 4 * (5 / 10 ^ 12 / L) := by ring
  rw [h4]
  linarith

/-! ### A case meeting the hypotheses -/

/-- A parallelogram with nodes (1, 1), (3, 1), (4, 3), (2, 3). -/
def zLean : Fin 4 → ℤ × ℤ := ![(1, 1), (3, 1), (4, 3), (2, 3)]

theorem lean_0 : zquad zLean 0 = (1, 1) := by norm_num [zquad, zLean]
theorem lean_1 : zquad zLean 1 = (3, 1) := by norm_num [zquad, zLean]
theorem lean_2 : zquad zLean 2 = (4, 3) := by simp [zquad, zLean]
theorem lean_3 : zquad zLean 3 = (2, 3) := by simp [zquad, zLean]

theorem lean_fair : FairCell (1 / 4) 2 50 (zquad zLean) where
  closed := by rw [lean_0, lean_1, lean_2, lean_3]; norm_num
  side1 := by rw [lean_0, lean_1]; norm_num
  side3 := by rw [lean_0, lean_3]; norm_num
  area := by rw [lean_0, lean_1, lean_3]; norm_num [area2]
  coords := by intro i; fin_cases i <;> norm_num [zquad, zLean]

/-- From (2, 2), the position (1/4, 1/2), to (3, 2), the position (3/4, 1/2): the projection of the first edge is 1/4, up to 1e-11. -/
example : ∃ p, project (nearGels (nearest 53)) ((Flows.new : Flows (Fl (nearest 53))).setQuadPoints (flQuad zLean)) (⟨2⟩, ⟨2⟩) (⟨3⟩, ⟨2⟩) = .ok (0, p) ∧
    |(p 0).val - 1 / 4| ≤ 1 / 10 ^ 11 := by
  obtain ⟨p, e, hp⟩ := C115_double (L := 2) (nearGels (nearest 53)) nearGels_double (by norm_num) (by norm_num) (flQuad zLean) lean_fair Flows.new
    (Flows.new.setQuadPoints (flQuad zLean)) ⟨[], rfl⟩ ⟨[], by simp, rfl⟩ (⟨2⟩, ⟨2⟩) (⟨3⟩, ⟨2⟩) ![1 / 4, 1 / 2] ![3 / 4, 1 / 2]
    (by intro k; fin_cases k <;> norm_num) (by intro k; fin_cases k <;> norm_num)
    (by rw [valQuad_fl]; norm_num [NearPt, pointAt, bilin, lean_0, lean_1, lean_2, lean_3]) (by rw [valQuad_fl]; norm_num [NearPt, pointAt, bilin, lean_0, lean_1, lean_2, lean_3])
  refine ⟨p, e, ?_⟩
  have := hp 0
  norm_num [projAt] at this ⊢
  exact this

end Sg.Props
