import Verif.Proof.FlowTrap
import Verif.Proof.FieldIntegral
import Verif.Proof.ConserveSelf
/-
What a cell adds for a clear segment depends on the two ends of the part in the cell only, and not on the cells visited before.
-/
namespace Sg.FlowInterp
open Sg.LinearSolve Sg.Triangulate Sg.QuadIntersect Sg.FindPoint Sg.QuadLine Sg.QuadFlows Sg.Spec Sg.Props Sg.Plane

section generic
variable {F : Type} [Zero F] [One F] [Add F] [Sub F] [Mul F] [Div F] [Neg F] [LT F] [DecidableLT F]
  [LE F] [DecidableLE F] [DecidableEq F] [NatCast F] [IntCast F] [FOps F] {n : Nat}

/-- The same finder with another box. -/
def withBounds (b : (Fin n → F) × (Fin n → F)) (s : Finder F n) : Finder F n := { s with bounds := some b }

theorem finish_withBounds (b : (Fin n → F) × (Fin n → F)) (s : Finder F n) (e : F) :
    (withBounds b s).finishStep e = ((s.finishStep e).1, withBounds b (s.finishStep e).2) := by
  unfold Finder.finishStep withBounds
  dsimp only
  split_ifs <;> rfl

/-- The box is used for the test at the beginning of a step only. -/
theorem next_withBounds (g : Gels F) (s : Finder F n) {b c : (Fin n → F) × (Fin n → F)} (hb : s.bounds = some b)
    (h1 : s.inside b = true) (h2 : s.inside c = true) :
    (withBounds c s).next g = (s.next g).map fun r => (r.1, withBounds c r.2) := by
  have h2' : (withBounds c s).inside c = true := h2
  unfold Finder.next
  rw [hb]
  show (match some c, s.slvr with | some b, some slvr => _ | _, _ => _) = _
  cases hs : s.slvr with
  | none => rfl
  | some sl =>
    dsimp only
    rw [h1, h2']
    simp only [Bool.not_true, Bool.false_eq_true, if_false]
    have ej : (withBounds c s).computeJacobianAndRHS = s.computeJacobianAndRHS := rfl
    rw [ej]
    cases s.computeJacobianAndRHS with
    | error _ => rfl
    | ok jr =>
      simp only [bind, Except.bind]
      cases sl.setMatrix (flatten2 jr.1) with
      | error _ => rfl
      | ok s1 =>
        dsimp only
        cases s1.setRightHandSide (flatten1 jr.2) with
        | error _ => rfl
        | ok s2 =>
          dsimp only
          cases s2.solve g with
          | error _ => rfl
          | ok s3 =>
            dsimp only
            cases (forAxes fun i : Fin n => vget s3.1.getSolution i) with
            | error _ => rfl
            | ok sol =>
              dsimp only
              set t : Finder F n := { s with
                bounds := some b
                slvr := some s3.1
                dIndices := fun i => truncateIndex (s.indexPeriodicity i) (s.dims i) (s.dIndices i + sol i) } with ht
              have et : ({ withBounds c s with
                slvr := some s3.1
                dIndices := fun i => truncateIndex ((withBounds c s).indexPeriodicity i) ((withBounds c s).dims i)
                  ((withBounds c s).dIndices i + sol i) } : Finder F n) = withBounds c t := rfl
              rw [et]
              have ee : (withBounds c t).getError = t.getError := rfl
              rw [ee]
              cases t.getError with
              | error _ => rfl
              | ok e =>
                simp only [pure, Except.pure, Except.map]
                rw [finish_withBounds]

theorem loop_withBounds (g : Gels F) {b c : (Fin n → F) × (Fin n → F)} : ∀ (k : Nat) (s : Finder F n), s.bounds = some b →
    s.inside b = true → s.inside c = true →
    searchLoop g k (withBounds c s) = (searchLoop g k s).map fun r => (r.1, withBounds c r.2)
  | 0, _, _, _, _ => rfl
  | k + 1, s, hb, h1, h2 => by
    unfold searchLoop
    rw [next_withBounds g s hb h1 h2]
    cases he : s.next g with
    | error _ => rfl
    | ok r =>
      obtain ⟨-, f2, -, f4, -⟩ := next_frame g s r.1 r.2 he
      simp only [Except.map, bind, Except.bind]
      by_cases h0 : r.1 = 0
      · rw [if_pos h0, if_pos h0]
        exact loop_withBounds g k r.2 (f2.trans hb) (by unfold Finder.inside at h1 ⊢; rw [f4]; exact h1)
          (by unfold Finder.inside at h2 ⊢; rw [f4]; exact h2)
      · rw [if_neg h0, if_neg h0]; rfl

end generic

/-- The coordinates of a point of the region are between those of the nodes. -/
theorem region_between {q : Quad ℝ} {p : P2} (hp : p ∈ quadRegion q) (k : Fin 2) {l u : ℝ} (h : ∀ i, l ≤ comp (q i) k ∧ comp (q i) k ≤ u) :
    l ≤ comp p k ∧ comp p k ≤ u := by
  have hc : Convex ℝ {p : P2 | l ≤ comp p k ∧ comp p k ≤ u} := by
    intro x hx y hy s t hs ht hst
    have e : comp (s • x + t • y) k = s * comp x k + t * comp y k := by
      unfold comp; fin_cases k <;> simp
    simp only [Set.mem_ofPred_eq] at hx hy ⊢
    rw [e]
    have : t = 1 - s := by linarith
    subst this
    constructor
    · nlinarith [hx.1, hy.1]
    · nlinarith [hx.2, hy.2]
  exact convexHull_min (by rintro _ ⟨i, rfl⟩; exact h i) hc hp

theorem region_inside {q : Quad ℝ} {p : P2} (hp : p ∈ quadRegion q) {f : Finder ℝ 2} (hf : HasQuad q f) {b : (Fin 2 → ℝ) × (Fin 2 → ℝ)}
    (hb : f.bounds = some b) (d : Fin 2 → ℝ) (f' : Finder ℝ 2) : (f'.reset d (comp p)).inside b = true := by
  have heps := FOpsLaws.eps_pos (K := ℝ)
  unfold Finder.inside
  rw [List.all_eq_true]
  intro k _
  have := region_between hp k (l := b.1 k) (u := b.2 k) (fun i => hf.bounds b hb k _ (by
    rw [hf.coords]
    unfold gridList
    rw [List.mem_map]
    have : ∃ j ∈ List.range 4, gridNode j = i := by revert i; decide
    obtain ⟨j, hj, rfl⟩ := this
    exact ⟨j, hj, rfl⟩))
  have ht : (f'.reset d (comp p)).targetPoint = comp p := rfl
  rw [ht]
  simp only [Bool.and_eq_true, decide_eq_true_eq]
  constructor <;> linarith [this.1, this.2]

/-- The position found for a point of the cell does not depend on what the object was used for before. -/
theorem foundX_cell {q : Quad ℝ} {p : P2} (hp : p ∈ quadRegion q) {g : Gels ℝ} (hg : FindPoint.KeepsSizes g) {f f' : Finder ℝ 2}
    (h : HasQuad q f) (h' : HasQuad q f') : foundX g f p = foundX g f' p := by
  obtain ⟨b, hb⟩ := h.ready.1
  obtain ⟨b', hb'⟩ := h'.ready.1
  set f1 := withBounds b f' with hf1
  have hs : SameGrid f f1 := by
    refine ⟨?_, hb.symm, h'.per.trans h.per.symm, h'.dims.trans h.dims.symm, h'.nitermax.trans h.nitermax.symm,
      h'.tolpos.trans h.tolpos.symm⟩
    funext k
    exact (h'.coords k).trans (h.coords k).symm
  have hr : FindPoint.Ready f1 := ⟨⟨b, rfl⟩, h'.ready.2⟩
  have h1 : HasQuad q f1 := h.same hr hs
  have hl := loop_withBounds g (b := b') (c := b) (f'.reset (fun _ => 1 / (1 + 1)) (comp p)).fuelOf
    (f'.reset (fun _ => 1 / (1 + 1)) (comp p)) hb' (region_inside hp h' hb' _ _) (region_inside hp h hb _ _)
  obtain ⟨c0, x0, g0, e0, -⟩ := findIndices_ok g hg h p
  obtain ⟨c1, x1, g1, e1, -⟩ := findIndices_ok g hg h1 p
  have hsame := (findIndices_same g hg h.ready hr hs p _ _ _ _ _ _ e0 e1).2
  have : foundX g f' p = foundX g f1 p := by
    unfold foundX findIndices
    dsimp only
    have e : f1.reset (fun _ => 1 / (1 + 1)) (comp p) = withBounds b (f'.reset (fun _ => 1 / (1 + 1)) (comp p)) := rfl
    rw [e]
    have e' : (withBounds b (f'.reset (fun _ => 1 / (1 + 1)) (comp p))).fuelOf = (f'.reset (fun _ => 1 / (1 + 1)) (comp p)).fuelOf := rfl
    rw [e', hl]
    cases searchLoop g (f'.reset (fun _ => 1 / (1 + 1)) (comp p)).fuelOf (f'.reset (fun _ => 1 / (1 + 1)) (comp p)) <;> rfl
  rw [this]
  unfold foundX
  rw [e0, e1]
  exact hsame

/-! ### The parameters collected -/

theorem area2_line {e0 e1 a b : P2} (t : ℝ) : area2 e0 e1 (a + t • (b - a)) = (1 - t) * area2 e0 e1 a + t * area2 e0 e1 b := by
  simp only [area2, Prod.fst_add, Prod.snd_add, Prod.smul_fst, Prod.smul_snd, Prod.fst_sub, Prod.snd_sub, smul_eq_mul]
  ring

/-- All of the region is on one side of an edge. -/
theorem region_side {q : Quad ℝ} (hq : ConvexQuad q) (i : Fin 4) :
    (∀ p ∈ quadRegion q, 0 ≤ area2 (q i) (q (i + 1)) p) ∨ ∀ p ∈ quadRegion q, area2 (q i) (q (i + 1)) p ≤ 0 := by
  have hlin : ∀ (x y : P2) (s t : ℝ), s + t = 1 →
      area2 (q i) (q (i + 1)) (s • x + t • y) = s * area2 (q i) (q (i + 1)) x + t * area2 (q i) (q (i + 1)) y := by
    intro x y s t hst
    have : t = 1 - s := by linarith
    subst this
    simp only [area2, Prod.fst_add, Prod.snd_add, Prod.smul_fst, Prod.smul_snd, smul_eq_mul]
    ring
  rcases Sg.Conserve.convex_side hq i with h | h
  · left
    refine fun p hp => convexHull_min (t := {p : P2 | 0 ≤ area2 (q i) (q (i + 1)) p}) (by rintro _ ⟨k, rfl⟩; exact h k) ?_ hp
    intro x hx y hy s t hs ht hst
    simp only [Set.mem_ofPred_eq] at hx hy ⊢
    rw [hlin x y s t hst]
    positivity
  · right
    refine fun p hp => convexHull_min (t := {p : P2 | area2 (q i) (q (i + 1)) p ≤ 0}) (by rintro _ ⟨k, rfl⟩; exact h k) ?_ hp
    intro x hx y hy s t hs ht hst
    simp only [Set.mem_ofPred_eq] at hx hy ⊢
    rw [hlin x y s t hst]
    nlinarith [mul_nonneg hs (neg_nonneg.mpr hx), mul_nonneg ht (neg_nonneg.mpr hy)]

/-- Only the two ends of the part in the cell are collected. -/
theorem collected_ends {g : Gels ℝ} (hg : GelsContract g) {q : Quad ℝ} (hq : ConvexQuad q) {a b : P2} (hc : ClearLine q a b) {lo hi : ℝ}
    (h : insideParams q a b = Set.Icc lo hi) {t : ℝ} (ht : t ∈ collectedL g q a b) : t = lo ∨ t = hi := by
  have hin := collectedL_inside hg hq hc t ht
  have hin' := hin
  rw [h] at hin'
  have hle : lo ≤ hi := hin'.1.trans hin'.2
  have ilo : lo ∈ insideParams q a b := by rw [h]; exact ⟨le_rfl, hle⟩
  have ihi : hi ∈ insideParams q a b := by rw [h]; exact ⟨hle, le_rfl⟩
  rw [mem_collectedL] at ht
  rcases ht with ⟨rfl, -⟩ | ⟨i, ht⟩ | ⟨rfl, -⟩
  · left; exact le_antisymm ilo.1 hin'.1
  · obtain ⟨hne, -, -, hseg⟩ := (edgeLam_clear hg (hc.proper i) (hc.edges i)).mp ht
    have hz := Sg.Conserve.area2_seg hseg
    by_contra hcon
    rw [not_or] at hcon
    have h1 : lo < t := lt_of_le_of_ne hin'.1 (Ne.symm hcon.1)
    have h2 : t < hi := lt_of_le_of_ne hin'.2 hcon.2
    have hd : area2 (q i) (q (i + 1)) b - area2 (q i) (q (i + 1)) a ≠ 0 := by
      intro h0; apply hne
      simp only [area2] at h0
      linear_combination h0
    rw [area2_line] at hz
    have f : ∀ s, area2 (q i) (q (i + 1)) (a + s • (b - a)) = (s - t) * (area2 (q i) (q (i + 1)) b - area2 (q i) (q (i + 1)) a) := by
      intro s; rw [area2_line]; linear_combination hz
    rcases region_side hq i with hs | hs
    · have a1 := hs _ ilo.2.2
      have a2 := hs _ ihi.2.2
      rw [f] at a1 a2
      rcases lt_or_gt_of_ne hd with hd | hd
      · nlinarith
      · nlinarith
    · have a1 := hs _ ilo.2.2
      have a2 := hs _ ihi.2.2
      rw [f] at a1 a2
      rcases lt_or_gt_of_ne hd with hd | hd
      · nlinarith
      · nlinarith
  · right; exact le_antisymm hin'.2 ihi.2.1

theorem projOf_self (x : Fin 2 → ℝ) (e : Fin 4) : projOf x x e = 0 := by
  fin_cases e <;> simp [projOf]

theorem projOf_swap (x y : Fin 2 → ℝ) (e : Fin 4) : projOf y x e = - projOf x y e := by
  fin_cases e <;> simp [projOf] <;> ring

/-- Points that repeat add nothing. -/
theorem pieceSum_ends (X : P2 → Fin 2 → ℝ) (P : ℝ → P2) {lo hi : ℝ} (L : List ℝ) (hs : L.Pairwise (· ≤ ·)) (hne : lo < hi)
    (hL : ∀ t ∈ L, t = lo ∨ t = hi) (n : Nat) (hn : n < L.length) (h0 : L.getD 0 0 = lo) (e : Fin 4) :
    pieceSum X (L.map P) n e = projOf (X (P lo)) (X (P (L.getD n 0))) e := by
  have hget : ∀ k < L.length, (L.map P).getD k (0, 0) = P (L.getD k 0) := by
    intro k hk
    simp [List.getD_eq_getElem?_getD, hk]
  induction n with
  | zero => rw [h0, projOf_self]; simp [pieceSum]
  | succ n ih =>
    have : pieceSum X (L.map P) (n + 1) e = pieceSum X (L.map P) n e +
        projOf (X ((L.map P).getD n (0, 0))) (X ((L.map P).getD (n + 1) (0, 0))) e := by
      unfold pieceSum; rw [Finset.sum_range_succ]
    rw [this, ih (by omega), hget n (by omega), hget (n + 1) hn]
    have m0 : L.getD n 0 ∈ L := by rw [List.getD_eq_getElem?_getD, List.getElem?_eq_getElem (by omega)]; exact List.getElem_mem _
    have m1 : L.getD (n + 1) 0 ∈ L := by rw [List.getD_eq_getElem?_getD, List.getElem?_eq_getElem hn]; exact List.getElem_mem _
    have hle : L.getD n 0 ≤ L.getD (n + 1) 0 := by
      rw [List.getD_eq_getElem?_getD, List.getElem?_eq_getElem (by omega), List.getD_eq_getElem?_getD, List.getElem?_eq_getElem hn]
      exact List.pairwise_iff_getElem.mp hs n (n + 1) (by omega) hn (by omega)
    rcases hL _ m0 with z0 | z0
    · rw [z0, projOf_self, zero_add]
    · rcases hL _ m1 with z1 | z1
      · rw [z0, z1] at hle; linarith
      · rw [z0, z1, projOf_self, add_zero]

/-- The position in the cell that the search finds. -/
noncomputable def cellX (g : Gels ℝ) (q : Quad ℝ) (p : P2) : Fin 2 → ℝ := foundX g (Flows.new.setQuadPoints q).finder p

/-- What a cell adds. -/
theorem cell_ends {g : Gels ℝ} (hg : GelsContract g) {srt : List ℝ → List ℝ} (hsrt : ∀ l, SortsTo l (srt l)) {q : Quad ℝ}
    (hcv : ConvexQuad q) {a b : P2} (hc : ClearLine q a b) {k : Nat} {l : List (Nat × (Fin 4 → ℝ))}
    (hl : CellSpec g srt q a b k l) (E : Fin 4 → ℝ) :
    (insideParams q a b = ∅ ∧ l = []) ∨
    ∃ lo hi, lo ≤ hi ∧ insideParams q a b = Set.Icc lo hi ∧
      (l.map fun c => flowDot c.2 E).sum = flowDot (projOf (cellX g q (a + lo • (b - a))) (cellX g q (a + hi • (b - a)))) E := by
  set L := srt (collectedL g q a b) with hL
  have hs : L.Pairwise (· ≤ ·) := sortsTo_le (hsrt _)
  have hp : L.Perm (collectedL g q a b) := (hsrt _).1
  have hin := sorted_inside hg hcv hc hp hs
  rcases List.eq_nil_or_concat L with hnil | ⟨L0, hi, hcat⟩
  · left
    refine ⟨?_, ?_⟩
    · rw [hin, hnil]; ext t; simp
    · rcases hl with ⟨-, h2, -⟩ | ⟨-, h⟩
      · rw [← hL, hnil] at h2; simp at h2
      · exact h
  right
  have hne : L ≠ [] := by rw [hcat]; simp
  obtain ⟨lo, L1, hcons⟩ := List.exists_cons_of_ne_nil hne
  have hlo : L.head? = some lo := by rw [hcons]; rfl
  have hhi : L.getLast? = some hi := by rw [hcat]; simp
  obtain ⟨mlo, mhi, hb⟩ := sorted_ends hs hlo hhi
  have hicc : insideParams q a b = Set.Icc lo hi := by
    rw [hin]; ext t
    simp only [hlo, hhi, Option.some.injEq, Set.mem_ofPred_eq, Set.mem_Icc]
    constructor
    · rintro ⟨_, _, rfl, rfl, h⟩; exact h
    · intro h; exact ⟨_, _, rfl, rfl, h⟩
  have hle : lo ≤ hi := (hb lo mlo).2
  have ilo : lo ∈ insideParams q a b := by rw [hicc]; exact ⟨le_rfl, hle⟩
  have ihi : hi ∈ insideParams q a b := by rw [hicc]; exact ⟨hle, le_rfl⟩
  have hov : overlapL q a b = true := overlapL_of_mem (mem_segment_iff.mpr ⟨lo, ilo.1, ilo.2.1, rfl⟩) ilo.2.2
  refine ⟨lo, hi, hle, hicc, ?_⟩
  have hends : ∀ t ∈ L, t = lo ∨ t = hi := fun t ht => collected_ends hg hcv hc hicc (hp.mem_iff.mp ht)
  have hzero : ∀ x : Fin 2 → ℝ, flowDot (projOf x x) E = 0 := by intro x; unfold flowDot; simp only [projOf_self]; ring
  rcases hl with ⟨-, h2, s0, h0, rfl⟩ | ⟨h, rfl⟩
  · rw [← hL]
    rw [← hL] at h2
    simp only [List.map_cons, List.map_nil, List.sum_cons, List.sum_nil, add_zero]
    have hX : ∀ p ∈ quadRegion q, foundX g (s0.setQuadPoints q).finder p = cellX g q p := fun p hp =>
      foundX_cell hp hg.sizes (hasQuad_set (flowsReached_finder g h0)) (hasQuad_set (flowsReached_finder g ⟨[], rfl⟩))
    have hlast : L.getD (L.length - 1) 0 = hi := by
      rw [List.getLast?_eq_getElem?] at hhi
      rw [List.getD_eq_getElem?_getD, hhi]; rfl
    have h00 : L.getD 0 0 = lo := by rw [hcons]; rfl
    have hfun : linePoint a b = fun t => a + t • (b - a) := by funext t; exact linePoint_eq ..
    congr 1
    funext e
    rcases hle.lt_or_eq with hlt | heq
    · rw [pieceSum_ends _ _ L hs hlt hends _ (by omega) h00, hlast, hfun, hX _ ilo.2.2, hX _ ihi.2.2]
    · subst heq
      rw [projOf_self]
      unfold pieceSum
      refine Finset.sum_eq_zero fun i hi' => ?_
      rw [Finset.mem_range] at hi'
      have hk : ∀ k < L.length, (L.map (linePoint a b)).getD k (0, 0) = linePoint a b lo := by
        intro k hk
        rw [List.getD_eq_getElem?_getD, List.getElem?_map, List.getElem?_eq_getElem hk]
        rcases hends _ (List.getElem_mem hk) with h | h <;> simp [h]
      rw [hk i (by omega), hk (i + 1) (by omega), projOf_self]
  · have : lo = hi := by
      have h2 : ¬ 2 ≤ L.length := fun h2 => h ⟨hov, h2⟩
      have : L.length = 1 := by have := List.length_pos_of_ne_nil hne; omega
      obtain ⟨z, hz⟩ := List.length_eq_one_iff.mp this
      rw [hz] at hlo hhi
      simp at hlo hhi
      exact hlo.symm.trans hhi
    rw [this, hzero]
    simp

/-- The cell adds the opposite for the segment the other way. -/
theorem cell_turn {g : Gels ℝ} (hg : GelsContract g) {srt : List ℝ → List ℝ} (hsrt : ∀ l, SortsTo l (srt l)) {q : Quad ℝ}
    (hcv : ConvexQuad q) {a b : P2} (hc : ClearLine q a b) (hc' : ClearLine q b a) {k k' : Nat} {l l' : List (Nat × (Fin 4 → ℝ))}
    (hl : CellSpec g srt q a b k l) (hl' : CellSpec g srt q b a k' l') (E : Fin 4 → ℝ) :
    (l'.map fun c => flowDot c.2 E).sum = - (l.map fun c => flowDot c.2 E).sum := by
  have hsw := inside_swap q b a
  have hdot : ∀ x y : Fin 2 → ℝ, flowDot (projOf y x) E = - flowDot (projOf x y) E := by
    intro x y; unfold flowDot; simp only [projOf_swap x y]; ring
  rcases cell_ends hg hsrt hcv hc hl E with ⟨h1, rfl⟩ | ⟨lo, hi, hle, h1, h2⟩ <;>
    rcases cell_ends hg hsrt hcv hc' hl' E with ⟨h1', rfl⟩ | ⟨lo', hi', hle', h1', h2'⟩
  · simp
  · have : lo' ∈ insideParams q b a := by rw [h1']; exact ⟨le_rfl, hle'⟩
    have := (hsw _).mp this
    rw [h1] at this; exact this.elim
  · have : lo ∈ insideParams q a b := by rw [h1]; exact ⟨le_rfl, hle⟩
    have := (inside_swap q a b _).mp this
    rw [h1'] at this; exact this.elim
  · rw [h2, h2', ← hdot]
    have e : ∀ t : ℝ, t ∈ Set.Icc lo' hi' ↔ 1 - t ∈ Set.Icc lo hi := by
      intro t; rw [← h1', ← h1]; exact hsw t
    have e1 : lo' = 1 - hi := by
      have p1 := (e lo').mp ⟨le_rfl, hle'⟩
      have p2 := (e (1 - hi)).mpr ⟨by linarith, by linarith⟩
      linarith [p1.2, p2.1]
    have e2 : hi' = 1 - lo := by
      have p1 := (e hi').mp ⟨hle', le_rfl⟩
      have p2 := (e (1 - lo)).mpr ⟨by linarith, by linarith⟩
      linarith [p1.1, p2.2]
    have q1 : b + lo' • (a - b) = a + hi • (b - a) := by rw [e1]; module
    have q2 : b + hi' • (a - b) = a + lo • (b - a) := by rw [e2]; module
    rw [q1, q2]

/-- The cell adds the same whenever it is met by the same segment. -/
theorem cell_repeat {g : Gels ℝ} (hg : GelsContract g) {srt : List ℝ → List ℝ} (hsrt : ∀ l, SortsTo l (srt l)) {q : Quad ℝ}
    (hcv : ConvexQuad q) {a b : P2} (hc : ClearLine q a b) {k k' : Nat} {l l' : List (Nat × (Fin 4 → ℝ))}
    (hl : CellSpec g srt q a b k l) (hl' : CellSpec g srt q a b k' l') (E : Fin 4 → ℝ) :
    (l'.map fun c => flowDot c.2 E).sum = (l.map fun c => flowDot c.2 E).sum := by
  rcases cell_ends hg hsrt hcv hc hl E with ⟨h1, rfl⟩ | ⟨lo, hi, hle, h1, h2⟩ <;>
    rcases cell_ends hg hsrt hcv hc hl' E with ⟨h1', rfl⟩ | ⟨lo', hi', hle', h1', h2'⟩
  · rfl
  · rw [h1] at h1'
    exact ((Set.nonempty_Icc.mpr hle').ne_empty h1'.symm).elim
  · rw [h1'] at h1
    exact ((Set.nonempty_Icc.mpr hle).ne_empty h1.symm).elim
  · rw [h1] at h1'
    obtain ⟨rfl, rfl⟩ := (Set.Icc_eq_Icc_iff hle).mp h1'
    rw [h2, h2']

/-- The parts of a segment before and after a point of it. -/
theorem inside_first {q : Quad ℝ} {a c : P2} {s t : ℝ} (h0 : 0 ≤ s) (h1 : s ≤ 1) (ht0 : 0 ≤ t) (ht1 : t ≤ 1) :
    t ∈ insideParams q a (a + s • (c - a)) ↔ s * t ∈ insideParams q a c := by
  have e : a + t • (a + s • (c - a) - a) = a + (s * t) • (c - a) := by module
  unfold insideParams
  simp only [Set.mem_ofPred_eq]
  rw [e]
  exact ⟨fun h => ⟨mul_nonneg h0 ht0, by nlinarith, h.2.2⟩, fun h => ⟨ht0, ht1, h.2.2⟩⟩

theorem inside_last {q : Quad ℝ} {a c : P2} {s t : ℝ} (h0 : 0 ≤ s) (h1 : s ≤ 1) (ht0 : 0 ≤ t) (ht1 : t ≤ 1) :
    t ∈ insideParams q (a + s • (c - a)) c ↔ s + (1 - s) * t ∈ insideParams q a c := by
  have e : a + s • (c - a) + t • (c - (a + s • (c - a))) = a + (s + (1 - s) * t) • (c - a) := by module
  unfold insideParams
  simp only [Set.mem_ofPred_eq]
  rw [e]
  exact ⟨fun h => ⟨by nlinarith [mul_nonneg (sub_nonneg.mpr h1) ht0], by nlinarith [mul_nonneg (sub_nonneg.mpr h1) (sub_nonneg.mpr ht1)], h.2.2⟩,
    fun h => ⟨ht0, ht1, h.2.2⟩⟩

/-- The change of a function along the part of a segment in the cell is the sum of the changes along the parts of two pieces. -/
theorem change_cut {q : Quad ℝ} {a c : P2} {s : ℝ} (h0 : 0 ≤ s) (h1 : s ≤ 1) (W : P2 → ℝ) {u v w : ℝ}
    (hu : (insideParams q a (a + s • (c - a)) = ∅ ∧ u = 0) ∨ ∃ lo hi, lo ≤ hi ∧ insideParams q a (a + s • (c - a)) = Set.Icc lo hi ∧
      u = W (a + hi • (a + s • (c - a) - a)) - W (a + lo • (a + s • (c - a) - a)))
    (hv : (insideParams q (a + s • (c - a)) c = ∅ ∧ v = 0) ∨ ∃ lo hi, lo ≤ hi ∧ insideParams q (a + s • (c - a)) c = Set.Icc lo hi ∧
      v = W (a + s • (c - a) + hi • (c - (a + s • (c - a)))) - W (a + s • (c - a) + lo • (c - (a + s • (c - a)))))
    (hw : (insideParams q a c = ∅ ∧ w = 0) ∨ ∃ lo hi, lo ≤ hi ∧ insideParams q a c = Set.Icc lo hi ∧
      w = W (a + hi • (c - a)) - W (a + lo • (c - a))) : w = u + v := by
  have e1 : ∀ t : ℝ, a + t • (a + s • (c - a) - a) = a + (s * t) • (c - a) := fun t => by module
  have e2 : ∀ t : ℝ, a + s • (c - a) + t • (c - (a + s • (c - a))) = a + (s + (1 - s) * t) • (c - a) := fun t => by module
  simp only [e1, e2] at hu hv
  have f1 : ∀ t ∈ insideParams q a (a + s • (c - a)), 0 ≤ t ∧ t ≤ 1 ∧ s * t ∈ insideParams q a c := fun t ht =>
    ⟨ht.1, ht.2.1, (inside_first h0 h1 ht.1 ht.2.1).mp ht⟩
  have f2 : ∀ t ∈ insideParams q (a + s • (c - a)) c, 0 ≤ t ∧ t ≤ 1 ∧ s + (1 - s) * t ∈ insideParams q a c := fun t ht =>
    ⟨ht.1, ht.2.1, (inside_last h0 h1 ht.1 ht.2.1).mp ht⟩
  have b1 : ∀ r ∈ insideParams q a c, r ≤ s → ∃ t ∈ insideParams q a (a + s • (c - a)), s * t = r := by
    intro r hr hrs
    rcases h0.lt_or_eq with hs | hs
    · have : s * (r / s) = r := by field_simp
      refine ⟨r / s, (inside_first h0 h1 (div_nonneg hr.1 h0) ((div_le_one hs).mpr hrs)).mpr (by rw [this]; exact hr), this⟩
    · have h := hr.1
      have : r = 0 := by linarith
      subst this
      exact ⟨0, (inside_first h0 h1 le_rfl zero_le_one).mpr (by rw [mul_zero]; exact hr), mul_zero _⟩
  have b2 : ∀ r ∈ insideParams q a c, s ≤ r → ∃ t ∈ insideParams q (a + s • (c - a)) c, s + (1 - s) * t = r := by
    intro r hr hrs
    rcases h1.lt_or_eq with hs | hs
    · have hs' : 0 < 1 - s := by linarith
      have : s + (1 - s) * ((r - s) / (1 - s)) = r := by field_simp; ring
      refine ⟨(r - s) / (1 - s), (inside_last h0 h1 (div_nonneg (by linarith) hs'.le) ((div_le_one hs').mpr (by linarith [hr.2.1]))).mpr
        (by rw [this]; exact hr), this⟩
    · have h := hr.2.1
      have : r = 1 := by linarith
      subst this
      exact ⟨0, (inside_last h0 h1 le_rfl zero_le_one).mpr (by rw [mul_zero, add_zero, hs]; exact hr), by rw [hs]; ring⟩
  rcases hw with ⟨hw, rfl⟩ | ⟨lo, hi, hle, hw, rfl⟩
  · have z1 : u = 0 := by
      rcases hu with ⟨-, h⟩ | ⟨l, h, hle, hI, -⟩
      · exact h
      · have := (f1 l (by rw [hI]; exact ⟨le_rfl, hle⟩)).2.2
        rw [hw] at this; exact this.elim
    have z2 : v = 0 := by
      rcases hv with ⟨-, h⟩ | ⟨l, h, hle, hI, -⟩
      · exact h
      · have := (f2 l (by rw [hI]; exact ⟨le_rfl, hle⟩)).2.2
        rw [hw] at this; exact this.elim
    rw [z1, z2, add_zero]
  have ilo : lo ∈ insideParams q a c := by rw [hw]; exact ⟨le_rfl, hle⟩
  have ihi : hi ∈ insideParams q a c := by rw [hw]; exact ⟨hle, le_rfl⟩
  have hv' : ∀ r, r ∈ insideParams q a c ↔ lo ≤ r ∧ r ≤ hi := fun r => by rw [hw]; rfl
  have s0 : 0 ≤ 1 - s := by linarith
  -- the first piece
  have p1 : (s < lo ∧ u = 0) ∨ (lo ≤ s ∧ u = W (a + (min s hi) • (c - a)) - W (a + lo • (c - a))) := by
    rcases hu with ⟨hI, rfl⟩ | ⟨l, h, hlh, hI, rfl⟩
    · left
      refine ⟨?_, rfl⟩
      by_contra hcon
      obtain ⟨t, ht, -⟩ := b1 lo ilo (not_lt.mp hcon)
      rw [hI] at ht; exact ht
    · right
      have ml := f1 l (by rw [hI]; exact ⟨le_rfl, hlh⟩)
      have mh := f1 h (by rw [hI]; exact ⟨hlh, le_rfl⟩)
      have rl := (hv' _).mp ml.2.2
      have rh := (hv' _).mp mh.2.2
      have hls : lo ≤ s := by nlinarith [ml.2.1]
      obtain ⟨t, ht, et⟩ := b1 lo ilo hls
      rw [hI] at ht
      have el : s * l = lo := le_antisymm (by rw [← et]; exact mul_le_mul_of_nonneg_left ht.1 h0) rl.1
      have eh : s * h = min s hi := by
        refine le_antisymm (le_min (by nlinarith [mh.2.1]) rh.2) ?_
        obtain ⟨t', ht', et'⟩ := b1 (min s hi) ((hv' _).mpr ⟨le_min hls hle, min_le_right _ _⟩) (min_le_left _ _)
        rw [hI] at ht'
        rw [← et']; exact mul_le_mul_of_nonneg_left ht'.2 h0
      exact ⟨hls, by rw [el, eh]⟩
  have p2 : (hi < s ∧ v = 0) ∨ (s ≤ hi ∧ v = W (a + hi • (c - a)) - W (a + (max s lo) • (c - a))) := by
    rcases hv with ⟨hI, rfl⟩ | ⟨l, h, hlh, hI, rfl⟩
    · left
      refine ⟨?_, rfl⟩
      by_contra hcon
      obtain ⟨t, ht, -⟩ := b2 hi ihi (not_lt.mp hcon)
      rw [hI] at ht; exact ht
    · right
      have ml := f2 l (by rw [hI]; exact ⟨le_rfl, hlh⟩)
      have mh := f2 h (by rw [hI]; exact ⟨hlh, le_rfl⟩)
      have rl := (hv' _).mp ml.2.2
      have rh := (hv' _).mp mh.2.2
      have hls : s ≤ hi := by nlinarith [mul_nonneg s0 ml.1]
      obtain ⟨t, ht, et⟩ := b2 hi ihi hls
      rw [hI] at ht
      have eh : s + (1 - s) * h = hi :=
        le_antisymm rh.2 (by rw [← et]; have := mul_le_mul_of_nonneg_left ht.2 s0; linarith)
      have el : s + (1 - s) * l = max s lo := by
        refine le_antisymm ?_ (max_le (by nlinarith [mul_nonneg s0 ml.1]) rl.1)
        obtain ⟨t', ht', et'⟩ := b2 (max s lo) ((hv' _).mpr ⟨le_max_right _ _, max_le hls hle⟩) (le_max_left _ _)
        rw [hI] at ht'
        rw [← et']; have := mul_le_mul_of_nonneg_left ht'.1 s0; linarith
      exact ⟨hls, by rw [el, eh]⟩
  rcases p1 with ⟨p1, rfl⟩ | ⟨p1, rfl⟩ <;> rcases p2 with ⟨p2, rfl⟩ | ⟨p2, rfl⟩
  · linarith
  · rw [max_eq_right p1.le, zero_add]
  · rw [min_eq_right p2.le, add_zero]
  · rw [min_eq_left p2, max_eq_left p1]; ring

/-- What a cell adds to the flow of a potential is the sum of what it adds for two pieces of the segment. -/
theorem cell_cut {g : Gels ℝ} (hg : GelsContract g) {srt : List ℝ → List ℝ} (hsrt : ∀ l, SortsTo l (srt l)) {q : Quad ℝ}
    (hcv : ConvexQuad q) {a c : P2} {s : ℝ} (h0 : 0 ≤ s) (h1 : s ≤ 1) (hc : ClearLine q a c) (hc1 : ClearLine q a (a + s • (c - a)))
    (hc2 : ClearLine q (a + s • (c - a)) c) {k k1 k2 : Nat} {l l1 l2 : List (Nat × (Fin 4 → ℝ))}
    (hl : CellSpec g srt q a c k l) (hl1 : CellSpec g srt q a (a + s • (c - a)) k1 l1)
    (hl2 : CellSpec g srt q (a + s • (c - a)) c k2 l2) (v : Fin 4 → ℝ) :
    (l.map fun c => flowDot c.2 (edgeDiff v)).sum =
      (l1.map fun c => flowDot c.2 (edgeDiff v)).sum + (l2.map fun c => flowDot c.2 (edgeDiff v)).sum := by
  have key : ∀ {a b : P2} {k : Nat} {l : List (Nat × (Fin 4 → ℝ))}, ClearLine q a b → CellSpec g srt q a b k l →
      (insideParams q a b = ∅ ∧ (l.map fun c => flowDot c.2 (edgeDiff v)).sum = 0) ∨ ∃ lo hi, lo ≤ hi ∧ insideParams q a b = Set.Icc lo hi ∧
        (l.map fun c => flowDot c.2 (edgeDiff v)).sum =
          bilin v (cellX g q (a + hi • (b - a))) - bilin v (cellX g q (a + lo • (b - a))) := by
    intro a b k l hc hl
    rcases cell_ends hg hsrt hcv hc hl (edgeDiff v) with ⟨h, rfl⟩ | ⟨lo, hi, hle, h, e⟩
    · exact Or.inl ⟨h, rfl⟩
    · exact Or.inr ⟨lo, hi, hle, h, e.trans (proj_potential _ _ v)⟩
  exact change_cut h0 h1 (fun p => bilin v (cellX g q p)) (key hc1 hl1) (key hc2 hl2) (key hc hl)

end Sg.FlowInterp
