import Verif.Proof.OverlapRounded
import Verif.Props.InterpRounding
import Verif.Props.CollectRounding
/-
Property C152: the candidate cells of a polygon in rounded arithmetic.
-/
namespace Sg.Props
open Sg Sg.FindPoint Sg.LinearSolve Sg.Spec Sg.FindOverlap Sg.NodeInterp

variable {rnd : ℝ → ℝ}

/-- What is set. -/
structure FlOvSet (dims : Fin 2 → Nat) (per : Fin 2 → Int) (coords : Fin 2 → Nat → Fl rnd) (o : Overlap (Fl rnd)) : Prop where
  ready : Ready o.finder
  grid : SameGrid (ovFinder dims per coords) o.finder
  nodes : o.srcNodeDims = dims
  prod : o.srcCellProdDims = fun j => if j = 0 then 1 * dims 1 else 1
  eps : o.eps = (1 : Fl rnd) / ((100 : Nat) : Fl rnd)
  gridSet : o.gridSet = true

theorem flOvSet_run (g : Gels (Fl rnd)) (hg : FindPoint.KeepsSizes g) (dims : Fin 2 → Nat) (per : Fin 2 → Int)
    (coords : Fin 2 → Nat → Fl rnd) : ∀ (cs : List (OverlapCall (Fl rnd))) (o0 o : Overlap (Fl rnd)), FlOvSet dims per coords o0 →
    runOverlap g o0 cs = .ok o → FlOvSet dims per coords o
  | [], o0, o, h, e => by simp only [runOverlap, Except.ok.injEq] at e; exact e ▸ h
  | .setPolygon n c :: cs, o0, o, h, e =>
    flOvSet_run g hg dims per coords cs (o0.setPolygonPoints n c) o ⟨h.ready, h.grid, h.nodes, h.prod, h.eps, h.gridSet⟩ e
  | .find :: cs, o0, o, h, e => by
    unfold runOverlap at e
    obtain ⟨o1, h1, e⟩ := bind_ok_inv e
    refine flOvSet_run g hg dims per coords cs o1 o ?_ e
    unfold Overlap.findSrcCellIndices at h1
    obtain ⟨⟨f, c⟩, hb, h1⟩ := bind_ok_inv h1
    obtain ⟨b0, _, h1⟩ := bind_ok_inv h1
    obtain ⟨b1, _, h1⟩ := bind_ok_inv h1
    obtain ⟨bx, _, h1⟩ := bind_ok_inv h1
    obtain ⟨inds, _, h1⟩ := bind_ok_inv h1
    simp only [pure, Except.pure, Except.ok.injEq] at h1
    subst h1
    have gen : ∀ (m start : Nat) (a b : Finder (Fl rnd) 2 × Corners (Fl rnd)), Ready a.1 → SameGrid (ovFinder dims per coords) a.1 →
        forFrom start m a (fun i s => o0.point g i s) = .ok b → Ready b.1 ∧ SameGrid (ovFinder dims per coords) b.1 := by
      intro m
      induction m with
      | zero =>
        intro start a b hr hq h
        simp only [forFrom, Except.ok.injEq] at h
        subst h; exact ⟨hr, hq⟩
      | succ m ih =>
        intro start a b hr hq h
        unfold forFrom at h
        dsimp only at h
        cases hp : o0.point g start a with
        | error e => rw [hp] at h; cases h
        | ok s1 =>
          rw [hp] at h
          dsimp only at h
          unfold Overlap.point at hp
          obtain ⟨t, _, hp⟩ := bind_ok_inv hp
          obtain ⟨⟨c1, f1⟩, hs, hp⟩ := bind_ok_inv hp
          simp only [pure, Except.pure, Except.ok.injEq] at hp
          have hfr := loop_frame g hg (by norm_num) _ _ c1 f1 (ready_reset a.1 _ _ hr) hs
          subst hp
          refine ih (start + 1) _ b hfr.1 ?_ h
          exact ⟨hfr.2.1.coords.trans hq.coords, hfr.2.1.bounds.trans hq.bounds, hfr.2.1.per.trans hq.per,
            hfr.2.1.dims.trans hq.dims, hfr.2.1.nitermax.trans hq.nitermax, hfr.2.1.tolpos.trans hq.tolpos⟩
    unfold Overlap.findFloatIndexBoxOfPolygon forN at hb
    rw [h.gridSet] at hb
    cases hps : o0.polySet with
    | false => rw [hps] at hb; cases hb
    | true =>
    rw [hps] at hb
    obtain ⟨r, q⟩ := gen _ 0 _ _ h.ready h.grid hb
    exact ⟨r, q, h.nodes, h.prod, h.eps, h.gridSet⟩

theorem dims_fit (dims : Fin 2 → Nat) (hd : ∀ i, 2 ≤ dims i) (hp : dims 0 * dims 1 ≤ 2147483647) (i : Fin 2) : dims i ≤ 2 ^ 30 := by
  have h0 := hd 0; have h1 := hd 1
  fin_cases i
  · show dims 0 ≤ _; norm_num; nlinarith
  · show dims 1 ≤ _; norm_num; nlinarith

theorem flBox_ok {N : Nat} (hN : KeepsInts rnd N) (h31 : 2 ^ 31 ≤ N) (g : Gels (Fl rnd)) (hg : FindPoint.KeepsSizes g) (dims : Fin 2 → Nat)
    (hd : ∀ i, 2 ≤ dims i) (hp : dims 0 * dims 1 ≤ 2147483647) (per : Fin 2 → Int) (coords : Fin 2 → Nat → Fl rnd) (o : Overlap (Fl rnd))
    (ho : FlOvSet dims per coords o) (np : Nat) (pc : Nat → Fl rnd) :
    ∃ pos : Nat → Fin 2 → Fl rnd, (∀ i < np, ∃ code h, vertexSearch g dims per coords (fun j => pc (2 * i + j)) = .ok (code, pos i, h)) ∧
      ∃ f c, (o.setPolygonPoints np pc).findFloatIndexBoxOfPolygon g = .ok (f, c) ∧ BoxOf dims (fun i => vals (pos i)) np (valsC c) ∧ Ready f ∧
        SameGrid (ovFinder dims per coords) f := by
  have hm := dims_fit dims hd hp
  have hmN : ∀ i, dims i ≤ N := fun i => (hm i).trans (by omega)
  set f0 : Finder (Fl rnd) 2 := ovFinder dims per coords with hf0
  have hgood : ∀ (f : Finder (Fl rnd) 2) (t : Fin 2 → Fl rnd), Ready f → SameGrid f0 f →
      GridFl N (f.reset (FindOverlap.startIndices dims) t) := by
    intro f t hr hq
    refine ⟨ready_reset _ _ _ hr, ?_, ?_, ?_⟩
    · show GoodDims f.dims
      rw [hq.dims]
      exact fun i => ⟨hd i, by have := hm i; show dims i ≤ _; omega⟩
    · show ∀ i, f.dims i ≤ N
      rw [hq.dims]; exact hmN
    · intro i
      show (f.coords i).length = ∏ k, f.dims k
      rw [hq.coords, hq.dims]
      simp [hf0, ovFinder, Finder.setGrid]
  have hfuel : ∀ f : Finder (Fl rnd) 2, SameGrid f0 f → f.fuelOf = 100 := by
    intro f hq
    unfold Finder.fuelOf
    rw [hq.nitermax]
    rfl
  have hv : ∀ i, ∃ code pos h, vertexSearch g dims per coords (fun j => pc (2 * i + j)) = .ok (code, pos, h) := by
    intro i
    obtain ⟨c, s', h1⟩ := loop_near hN g hg (by norm_num) 100 _
      (hgood f0 (fun j => pc (2 * i + j)) (ready_setGrid _ _ _ _) (sameGrid_refl _)) hm (start_near hN h31 dims hm)
    refine ⟨c, s'.dIndices, s'.errorHistory, ?_⟩
    unfold vertexSearch searchFrom
    rw [← hf0, h1]; rfl
  choose code pos hist hvs using hv
  refine ⟨pos, fun i _ => ⟨_, _, hvs i⟩, ?_⟩
  have h0 : ∀ j, (0 : ℝ) ≤ (dims j : ℝ) - 1 := fun j => by
    have : (2 : ℝ) ≤ (dims j : ℝ) := by exact_mod_cast hd j
    linarith
  have hcast : ∀ j, ((dims j - 1 : Nat) : Fl rnd).val = (dims j : ℝ) - 1 := fun j => by
    rw [cast_fl hN (by have := hmN j; omega)]
    push_cast [Nat.cast_sub (show 1 ≤ dims j by have := hd j; omega)]; ring
  obtain ⟨⟨f, c⟩, h1, h2, h3, h4⟩ := forN_inv
    (fun k (s : Finder (Fl rnd) 2 × Corners (Fl rnd)) => BoxOf dims (fun i => vals (pos i)) k (valsC s.2) ∧ Ready s.1 ∧ SameGrid f0 s.1)
    (fun i s => (o.setPolygonPoints np pc).point g i s) np
    (o.finder, { lo := fun j => ((o.srcNodeDims j - 1 : Nat) : Fl rnd), hi := fun _ => 0 })
    ⟨⟨by
        intro j
        show 0 ≤ ((o.srcNodeDims j - 1 : Nat) : Fl rnd).val ∧ ((o.srcNodeDims j - 1 : Nat) : Fl rnd).val ≤ (dims j : ℝ) - 1
        rw [ho.nodes, hcast j]
        exact ⟨h0 j, le_refl _⟩, fun j => ⟨le_refl _, h0 j⟩, by simp, fun j => .inr (by
          show ((o.srcNodeDims j - 1 : Nat) : Fl rnd).val = _
          rw [ho.nodes, hcast j]), fun j => .inr rfl⟩, ho.ready, ho.grid⟩
    (by
      rintro k ⟨f, c⟩ hk ⟨hb, hr, hq⟩
      dsimp only at hb hr hq
      have ht : (forAxes fun j : Fin 2 => vget (o.setPolygonPoints np pc).polyPoints (k * 2 + j)) =
          .ok (fun j : Fin 2 => pc (2 * k + j)) := by
        refine forAxes_ok _ _ fun j => ?_
        show vget ((List.range (2 * np)).map pc) (k * 2 + j) = _
        rw [vget_eq_ok, List.getElem?_map, List.getElem?_range (by omega), Option.map_some, mul_comm]
      have hs := loop_same g hg (by norm_num) f0 f (ready_setGrid _ _ _ _) hr hq (FindOverlap.startIndices dims)
        (fun j => pc (2 * k + j)) 100
      have hv := hvs k
      unfold vertexSearch searchFrom at hv
      rw [← hf0] at hv
      obtain ⟨⟨c0, s0⟩, hs0, hv⟩ := bind_ok_inv hv
      simp only [pure, Except.pure, Except.ok.injEq, Prod.mk.injEq] at hv
      rw [hs0] at hs
      cases hx : searchLoop g 100 (f.reset (FindOverlap.startIndices dims) fun j => pc (2 * k + j)) with
      | error e => rw [hx] at hs; exact hs.elim
      | ok r =>
        rw [hx] at hs
        obtain ⟨c1, f1⟩ := r
        obtain ⟨_, hdI⟩ := hs
        dsimp only at hdI
        have hfr := loop_frame g hg (by norm_num) 100 _ c1 f1 (ready_reset f _ _ hr) hx
        refine ⟨(f1, c.update dims (pos k)), ?_, ?_, hfr.1, ?_⟩
        · unfold Overlap.point
          dsimp only
          rw [ht]
          simp only [bind, Except.bind]
          rw [hfuel f hq]
          have e1 : (o.setPolygonPoints np pc).srcNodeDims = dims := ho.nodes
          rw [e1, hx]
          simp only [pure, Except.pure]
          rw [hdI, hv.2.1]
        · have hu0 := update_vals hN dims hmN (pos k) c
          have hu1 := update_eq dims hd (vals (pos k)) (valsC c) hb.lo hb.hi
          have hu : ∀ j, (valsC (c.update dims (pos k))).lo j = min (clampTo dims (vals (pos k)) j) ((valsC c).lo j) ∧
              (valsC (c.update dims (pos k))).hi j = max (clampTo dims (vals (pos k)) j) ((valsC c).hi j) := fun j =>
            ⟨(hu0 j).1.trans (hu1 j).1, (hu0 j).2.trans (hu1 j).2⟩
          have hc := clamp_inGrid dims hd (vals (pos k))
          dsimp only
          refine ⟨?_, ?_, ?_, ?_, ?_⟩
          · intro j
            rw [(hu j).1]
            exact ⟨le_min (hc j).1 (hb.lo j).1, (min_le_left _ _).trans (hc j).2⟩
          · intro j
            rw [(hu j).2]
            exact ⟨(hc j).1.trans (le_max_left _ _), max_le (hc j).2 (hb.hi j).2⟩
          · intro i hi j
            rw [(hu j).1, (hu j).2]
            rcases Nat.lt_succ_iff_lt_or_eq.1 hi with hi | rfl
            · have := hb.all i hi j
              exact ⟨(min_le_right _ _).trans this.1, this.2.trans (le_max_right _ _)⟩
            · exact ⟨min_le_left _ _, le_max_left _ _⟩
          · intro j
            rw [(hu j).1]
            rcases le_total (clampTo dims (vals (pos k)) j) ((valsC c).lo j) with h | h
            · exact .inl ⟨k, Nat.lt_succ_self k, min_eq_left h⟩
            · rw [min_eq_right h]
              rcases hb.reached j with ⟨i, hi, he⟩ | he
              · exact .inl ⟨i, hi.trans (Nat.lt_succ_self k), he⟩
              · exact .inr he
          · intro j
            rw [(hu j).2]
            rcases le_total ((valsC c).hi j) (clampTo dims (vals (pos k)) j) with h | h
            · exact .inl ⟨k, Nat.lt_succ_self k, max_eq_left h⟩
            · rw [max_eq_right h]
              rcases hb.reachedHi j with ⟨i, hi, he⟩ | he
              · exact .inl ⟨i, hi.trans (Nat.lt_succ_self k), he⟩
              · exact .inr he
        · exact ⟨hfr.2.1.coords.trans hq.coords, hfr.2.1.bounds.trans hq.bounds, hfr.2.1.per.trans hq.per,
            hfr.2.1.dims.trans hq.dims, hfr.2.1.nitermax.trans hq.nitermax, hfr.2.1.tolpos.trans hq.tolpos⟩)
  refine ⟨f, c, ?_, h2, h3, h4⟩
  unfold Overlap.findFloatIndexBoxOfPolygon
  rw [show (o.setPolygonPoints np pc).gridSet = true from ho.gridSet]
  exact h1

/-- The upper corner plus the margin of 0.01, rounded. -/
noncomputable def flTop (rnd : ℝ → ℝ) (x : ℝ) : ℝ := rnd (x + rnd (1 / rnd 100))

theorem margin_fl {N : Nat} (hN : KeepsInts rnd N) (h31 : 2 ^ 31 ≤ N) : 0 ≤ rnd (1 / rnd 100) ∧ rnd (1 / rnd 100) ≤ 1 := by
  have e : rnd 100 = 100 := by have := hN.int 100 (by omega); push_cast at this; exact this
  rw [e]
  refine ⟨hN.nonneg (by norm_num), ?_⟩
  have := hN.le (k := 1) (by omega) (show (1 / 100 : ℝ) ≤ ((1 : Nat) : ℝ) by norm_num)
  rwa [Nat.cast_one] at this

theorem flTop_le {N : Nat} (hN : KeepsInts rnd N) (h31 : 2 ^ 31 ≤ N) (x : ℝ) (d : Nat) (hd : d ≤ 2 ^ 30) (h1 : x ≤ (d : ℝ) - 1) :
    flTop rnd x ≤ d := by
  have := margin_fl hN h31
  exact hN.le (by omega) (by linarith)

theorem flTop_nonneg {N : Nat} (hN : KeepsInts rnd N) (h31 : 2 ^ 31 ≤ N) (x : ℝ) (h0 : 0 ≤ x) : 0 ≤ flTop rnd x := by
  have := margin_fl hN h31
  exact hN.nonneg (by linarith)

/-- The rounded corner is not below an integer that the corner is not below. -/
theorem flTop_ge {N : Nat} (hN : KeepsInts rnd N) (h31 : 2 ^ 31 ≤ N) (x : ℝ) (k : Nat) (hk : k ≤ 2 ^ 30) (h1 : (k : ℝ) ≤ x) : (k : ℝ) ≤ flTop rnd x := by
  have h2 := margin_fl hN h31
  have h3 : rnd (k : ℝ) ≤ flTop rnd x := hN.mono (by linarith)
  rwa [hN.int k (by omega)] at h3

theorem flBoxInds {N : Nat} (hN : KeepsInts rnd N) (h31 : 2 ^ 31 ≤ N) (dims : Fin 2 → Nat) (hm : ∀ i, dims i ≤ 2 ^ 30) (o : Overlap (Fl rnd))
    (hn : o.srcNodeDims = dims) (he : o.eps = (1 : Fl rnd) / ((100 : Nat) : Fl rnd)) (c : Corners (Fl rnd)) (hlo : InGrid dims (valsC c).lo)
    (hhi : InGrid dims (valsC c).hi) (j : Fin 2) :
    o.boxInds c j = .ok (⌊(valsC c).lo j⌋, min ⌈flTop rnd ((valsC c).hi j)⌉ ((dims j : Int) - 1)) ∧ 0 ≤ ⌊(valsC c).lo j⌋ := by
  obtain ⟨l0, l1⟩ := hlo j
  obtain ⟨k0, k1⟩ := hhi j
  have hf0 : 0 ≤ ⌊(valsC c).lo j⌋ := Int.floor_nonneg.2 l0
  have hd' := hm j
  have hl1 : ⌊(valsC c).lo j⌋ ≤ (dims j : Int) - 1 := by
    have h4 : ((⌊(valsC c).lo j⌋ : Int) : ℝ) ≤ (((dims j : Int) - 1 : Int) : ℝ) := by push_cast; exact (Int.floor_le _).trans l1
    exact_mod_cast h4
  have hf : FOps.floorI (c.lo j) = some ⌊(valsC c).lo j⌋ := if_pos (show inI32 ⌊(valsC c).lo j⌋ by constructor <;> omega)
  have hv : (c.hi j + o.eps).val = flTop rnd ((valsC c).hi j) := by
    rw [he]
    show rnd (_ + rnd (1 / rnd ((100 : Nat) : ℝ))) = _
    rw [Nat.cast_ofNat]
    rfl
  have hceil : ⌊(-(c.hi j + o.eps)).val⌋ = -⌈flTop rnd ((valsC c).hi j)⌉ := by
    show ⌊-(c.hi j + o.eps).val⌋ = _
    rw [hv, Int.floor_neg]
  have hc1 : ⌈flTop rnd ((valsC c).hi j)⌉ ≤ (dims j : Int) := by
    rw [Int.ceil_le]
    exact_mod_cast flTop_le hN h31 _ _ hd' k1
  have hc0 : 0 ≤ ⌈flTop rnd ((valsC c).hi j)⌉ := Int.ceil_nonneg (flTop_nonneg hN h31 _ k0)
  have hf2 : FOps.floorI (-(c.hi j + o.eps)) = some (-⌈flTop rnd ((valsC c).hi j)⌉) := by
    rw [← hceil]
    exact if_pos (by rw [hceil]; constructor <;> omega)
  refine ⟨?_, hf0⟩
  unfold Overlap.boxInds ceilI
  rw [hf, hf2, hn]
  simp only [Option.map_some, neg_neg]
  rw [if_pos hf0]
  congr 2
  split_ifs with h
  · rw [min_eq_left h.le]
  · rw [min_eq_right (not_lt.1 h)]

theorem flFind_ok {N : Nat} (hN : KeepsInts rnd N) (h31 : 2 ^ 31 ≤ N) (g : Gels (Fl rnd)) (hg : FindPoint.KeepsSizes g) (dims : Fin 2 → Nat)
    (hd : ∀ i, 2 ≤ dims i) (hp : dims 0 * dims 1 ≤ 2147483647) (per : Fin 2 → Int) (coords : Fin 2 → Nat → Fl rnd) (o : Overlap (Fl rnd))
    (ho : FlOvSet dims per coords o) (np : Nat) (hnp : 1 ≤ np) (pc : Nat → Fl rnd) :
    ∃ pos : Nat → Fin 2 → Fl rnd, (∀ i < np, ∃ code h, vertexSearch g dims per coords (fun j => pc (2 * i + j)) = .ok (code, pos i, h)) ∧
      ∃ (c : Corners ℝ) (o' : _), BoxOf dims (fun i => vals (pos i)) np c ∧ (o.setPolygonPoints np pc).findSrcCellIndices g = .ok o' ∧
        o'.srcCellFlatInds.Nodup ∧ (∀ j, ⌊c.lo j⌋ ≤ min ⌈flTop rnd (c.hi j)⌉ ((dims j : Int) - 1)) ∧
        ∀ x, x ∈ o'.srcCellFlatInds ↔ ∃ i j : Int,
          (⌊c.lo 0⌋ ≤ i ∧ i < min ⌈flTop rnd (c.hi 0)⌉ ((dims 0 : Int) - 1)) ∧
          (⌊c.lo 1⌋ ≤ j ∧ j < min ⌈flTop rnd (c.hi 1)⌉ ((dims 1 : Int) - 1)) ∧ x = i * dims 1 + j := by
  have hm := dims_fit dims hd hp
  obtain ⟨pos, hpos, f, c, hbox, hb, hr, hq⟩ := flBox_ok hN h31 g hg dims hd hp per coords o ho np pc
  have hbi := flBoxInds hN h31 dims hm (o.setPolygonPoints np pc) ho.nodes ho.eps c hb.lo hb.hi
  have hlh : ∀ j, ⌊(valsC c).lo j⌋ ≤ min ⌈flTop rnd ((valsC c).hi j)⌉ ((dims j : Int) - 1) := by
    intro j
    have h1 := hb.all 0 hnp j
    have h2 : (valsC c).lo j ≤ (valsC c).hi j := h1.1.trans h1.2
    have h3 := (hb.lo j).2
    have h5 : ⌊(valsC c).lo j⌋ ≤ (dims j : Int) - 1 := by
      have h4 : ((⌊(valsC c).lo j⌋ : Int) : ℝ) ≤ (((dims j : Int) - 1 : Int) : ℝ) := by
        push_cast; exact (Int.floor_le _).trans h3
      exact_mod_cast h4
    have h6 : ((⌊(valsC c).lo j⌋.toNat : Nat) : ℝ) = ((⌊(valsC c).lo j⌋ : Int) : ℝ) := by
      have : ((⌊(valsC c).lo j⌋.toNat : Nat) : Int) = ⌊(valsC c).lo j⌋ := Int.toNat_of_nonneg (hbi j).2
      exact_mod_cast this
    refine le_min ?_ h5
    have h7 := flTop_ge hN h31 ((valsC c).hi j) ⌊(valsC c).lo j⌋.toNat (by have := hm j; omega)
      (by rw [h6]; exact (Int.floor_le _).trans h2)
    rw [h6] at h7
    exact_mod_cast h7.trans (Int.le_ceil _)
  let od : Overlap ℝ := { (FindOverlap.new : Overlap ℝ) with srcCellProdDims := (o.setPolygonPoints np pc).srcCellProdDims }
  obtain ⟨inds, hinds, hnd, hmem⟩ := boxCells (dims 1) od ho.prod (dims 0) hp _ _ _ _
    (hbi 0).2 (hbi 1).2 (hlh 0) (hlh 1) (min_le_right _ _) (min_le_right _ _)
  have hcell : ∀ e, od.cellIndx e = (o.setPolygonPoints np pc).cellIndx e := fun e => rfl
  refine ⟨pos, hpos, valsC c, { o.setPolygonPoints np pc with finder := f, srcCellFlatInds := inds }, hb, ?_, hnd, hlh, hmem⟩
  unfold Overlap.findSrcCellIndices
  rw [hbox]
  simp only [bind, Except.bind]
  rw [(hbi 0).1, (hbi 1).1]
  dsimp only
  obtain ⟨bx, hbx, hinds⟩ := bind_ok_inv hinds
  rw [hbx]
  dsimp only
  simp only [bind, Except.bind, hcell] at hinds
  rw [hinds]
  rfl

theorem flOvSet_grid (dims : Fin 2 → Nat) (per : Fin 2 → Int) (coords : Fin 2 → Nat → Fl rnd) :
    FlOvSet dims per coords ((FindOverlap.new : Overlap (Fl rnd)).setSrcGrid dims per coords) :=
  ⟨ready_setGrid _ _ _ _, sameGrid_refl _, rfl, rfl, rfl, rfl⟩

/-- **C152** In every rounded arithmetic that keeps the order and the integers up to `2^31`, with any result of the linear solver: after any earlier use on this
grid, for every polygon with at least one vertex, inside the grid or not, the search of cells has no undefined behaviour; the reported numbers are, without
repetition, the numbers `i * dims[1] + j` of the cells `(i, j)` of an index box `[lo, hi)` with `hi ≤ dims - 1`, all of them cells of the grid. -/
theorem C152_valid_box {N : Nat} (hN : KeepsInts rnd N) (h31 : 2 ^ 31 ≤ N) (g : Gels (Fl rnd)) (hg : FindPoint.KeepsSizes g) (dims : Fin 2 → Nat)
    (hd : ∀ i, 2 ≤ dims i) (hp : dims 0 * dims 1 ≤ 2147483647) (per : Fin 2 → Int) (coords : Fin 2 → Nat → Fl rnd)
    (cs : List (OverlapCall (Fl rnd))) (o : Overlap (Fl rnd))
    (hrun : runOverlap g ((FindOverlap.new : Overlap (Fl rnd)).setSrcGrid dims per coords) cs = .ok o)
    (np : Nat) (hnp : 1 ≤ np) (pc : Nat → Fl rnd) :
    ∃ o', (o.setPolygonPoints np pc).findSrcCellIndices g = .ok o' ∧ o'.srcCellFlatInds.Nodup ∧
      ∃ lo hi : Fin 2 → Nat, (∀ j, lo j ≤ hi j ∧ hi j + 1 ≤ dims j) ∧
        ∀ x, x ∈ o'.srcCellFlatInds ↔ ∃ i j : Nat, (lo 0 ≤ i ∧ i < hi 0) ∧ (lo 1 ≤ j ∧ j < hi 1) ∧
          x = ((i * dims 1 + j : Nat) : Int) := by
  have hs := flOvSet_run g hg dims per coords cs _ o (flOvSet_grid dims per coords) hrun
  obtain ⟨pos, hpos, c, o', hb, ho', hnd, hlh, hmem⟩ := flFind_ok hN h31 g hg dims hd hp per coords o hs np hnp pc
  have h0 : ∀ j, 0 ≤ ⌊c.lo j⌋ := fun j => Int.floor_nonneg.2 (hb.lo j).1
  refine ⟨o', ho', hnd, fun j => ⌊c.lo j⌋.toNat, fun j => (min ⌈flTop rnd (c.hi j)⌉ ((dims j : Int) - 1)).toNat, ?_, ?_⟩
  · intro j
    dsimp only
    have h1 := hlh j
    have h2 := h0 j
    have h3 := hd j
    constructor <;> omega
  · intro x
    rw [hmem]
    have h1 := h0 0
    have h2 := h0 1
    dsimp only
    constructor
    · rintro ⟨i, j, hi, hj, rfl⟩
      refine ⟨i.toNat, j.toNat, by omega, by omega, ?_⟩
      push_cast
      rw [Int.toNat_of_nonneg (by omega), Int.toNat_of_nonneg (by omega)]
    · rintro ⟨i, j, hi, hj, rfl⟩
      exact ⟨i, j, by omega, by omega, by push_cast; rfl⟩

/-- With a relative error of at most `2^-40`, the margin of 0.01 is not lost for indices up to `2^30`. -/
theorem flTop_gt {u : ℝ} (hr : Rounds rnd u 0) (hu : u ≤ 1 / 2 ^ 40) {N : Nat} (hN : KeepsInts rnd N) (h31 : 2 ^ 31 ≤ N) (x : ℝ) (h0 : 0 ≤ x)
    (h1 : x ≤ 2 ^ 30) : x < flTop rnd x := by
  have e : rnd 100 = 100 := by have := hN.int 100 (by omega); push_cast at this; exact this
  have hm := margin_fl hN h31
  have h2 := hr.err (1 / rnd 100)
  have h3 := hr.err (x + rnd (1 / rnd 100))
  unfold flTop
  set m := rnd (1 / rnd 100) with hmdef
  rw [e, abs_of_nonneg (by norm_num : (0 : ℝ) ≤ 1 / 100)] at h2
  rw [abs_of_nonneg (by linarith : (0 : ℝ) ≤ x + m)] at h3
  have h4 := (abs_le.1 h2).1
  have h5 := (abs_le.1 h3).1
  have h6 : u * (x + m) ≤ 1 / 2 ^ 40 * (2 ^ 30 + 1) :=
    mul_le_mul hu (by linarith [hm.2]) (by linarith [hm.1]) (by positivity)
  have h7 : u * (1 / 100) ≤ 1 / 2 ^ 40 * (1 / 100) := mul_le_mul_of_nonneg_right hu (by norm_num)
  norm_num at h4 h5 h6 h7 ⊢
  linarith

/-- **C152** If the relative error is at most `2^-40` and, along each axis, some vertex is placed below the upper boundary, then for every vertex placed in the grid the
cell that holds the place found for it is reported. -/
theorem C152_cover {u : ℝ} (hr : Rounds rnd u 0) (hu : u ≤ 1 / 2 ^ 40) {N : Nat} (hN : KeepsInts rnd N) (h31 : 2 ^ 31 ≤ N) (g : Gels (Fl rnd))
    (hg : FindPoint.KeepsSizes g) (dims : Fin 2 → Nat)
    (hd : ∀ i, 2 ≤ dims i) (hp : dims 0 * dims 1 ≤ 2147483647) (per : Fin 2 → Int) (coords : Fin 2 → Nat → Fl rnd)
    (cs : List (OverlapCall (Fl rnd))) (o : Overlap (Fl rnd))
    (hrun : runOverlap g ((FindOverlap.new : Overlap (Fl rnd)).setSrcGrid dims per coords) cs = .ok o)
    (np : Nat) (pc : Nat → Fl rnd)
    (hbelow : ∀ j : Fin 2, ∃ i < np, ∃ code pos h, vertexSearch g dims per coords (fun j => pc (2 * i + j)) = .ok (code, pos, h) ∧
      (pos j).val < (dims j : ℝ) - 1)
    (i : Nat) (hi : i < np) (code : Int) (pos : Fin 2 → Fl rnd) (h : List (Fl rnd))
    (hv : vertexSearch g dims per coords (fun j => pc (2 * i + j)) = .ok (code, pos, h)) (hin : InGrid dims (vals pos)) :
    ∃ o', (o.setPolygonPoints np pc).findSrcCellIndices g = .ok o' ∧
      ((cellLo dims (vals pos) 0 * dims 1 + cellLo dims (vals pos) 1 : Nat) : Int) ∈ o'.srcCellFlatInds := by
  have hs := flOvSet_run g hg dims per coords cs _ o (flOvSet_grid dims per coords) hrun
  obtain ⟨pos', hpos, c, o', hb, ho', hnd, hlh, hmem⟩ := flFind_ok hN h31 g hg dims hd hp per coords o hs np (by omega) pc
  refine ⟨o', ho', ?_⟩
  rw [hmem]
  obtain ⟨code', h', hv'⟩ := hpos i hi
  rw [hv, Except.ok.injEq, Prod.mk.injEq, Prod.mk.injEq] at hv'
  obtain ⟨rfl, rfl, rfl⟩ := hv'
  have hall := hb.all i hi
  rw [clamp_id dims _ hin] at hall
  have hcell : ∀ j, ⌊c.lo j⌋ ≤ (cellLo dims (vals (pos' i)) j : Int) ∧
      (cellLo dims (vals (pos' i)) j : Int) < min ⌈flTop rnd (c.hi j)⌉ ((dims j : Int) - 1) := by
    intro j
    have hlt : c.lo j < (dims j : ℝ) - 1 := by
      obtain ⟨k, hk, code2, pos2, h2, hv2, hlt⟩ := hbelow j
      obtain ⟨code3, h3, hv3⟩ := hpos k hk
      rw [hv2, Except.ok.injEq, Prod.mk.injEq, Prod.mk.injEq] at hv3
      obtain ⟨_, rfl, _⟩ := hv3
      refine lt_of_le_of_lt (hb.all k hk j).1 ?_
      unfold clampTo
      rw [max_lt_iff]
      refine ⟨?_, lt_of_le_of_lt (min_le_left _ _) hlt⟩
      have : (2 : ℝ) ≤ (dims j : ℝ) := by exact_mod_cast hd j
      linarith
    obtain ⟨p0, p1⟩ := hin j
    have hf0 : 0 ≤ ⌊vals (pos' i) j⌋ := Int.floor_nonneg.2 p0
    have hc : (cellLo dims (vals (pos' i)) j : Int) = min ⌊vals (pos' i) j⌋ ((dims j : Int) - 2) := by
      unfold cellLo
      have := hd j
      omega
    have hlo1 : ⌊c.lo j⌋ ≤ ⌊vals (pos' i) j⌋ := Int.floor_mono (hall j).1
    have hlo2 : ⌊c.lo j⌋ ≤ (dims j : Int) - 2 := by
      have h6 : ((⌊c.lo j⌋ : Int) : ℝ) < (((dims j : Int) - 1 : Int) : ℝ) := by
        push_cast; exact lt_of_le_of_lt (Int.floor_le _) hlt
      have : ⌊c.lo j⌋ < (dims j : Int) - 1 := by exact_mod_cast h6
      omega
    have hdr : (dims j : ℝ) ≤ 2 ^ 30 := by exact_mod_cast dims_fit dims hd hp j
    have htop := flTop_gt hr hu hN h31 (c.hi j) (hb.hi j).1 ((hb.hi j).2.trans (by linarith))
    have hhi : ⌊vals (pos' i) j⌋ < ⌈flTop rnd (c.hi j)⌉ := by
      have h5 : ((⌊vals (pos' i) j⌋ : Int) : ℝ) < ((⌈flTop rnd (c.hi j)⌉ : Int) : ℝ) :=
        lt_of_le_of_lt (Int.floor_le _) (lt_of_lt_of_le (lt_of_le_of_lt (hall j).2 htop) (Int.le_ceil _))
      exact_mod_cast h5
    rw [hc]
    constructor
    · exact le_min hlo1 hlo2
    · rw [lt_min_iff]
      exact ⟨lt_of_le_of_lt (min_le_left _ _) hhi, by have := min_le_right ⌊vals (pos' i) j⌋ ((dims j : Int) - 2); omega⟩
  exact ⟨_, _, hcell 0, hcell 1, by push_cast; rfl⟩

/-! ### A case: binary digits, and a vertex outside of the grid -/

theorem fold_max_le (c : Nat → Fl rnd) (B : ℝ) (hc : ∀ k, (c k).val ≤ B) : ∀ (l : List Nat) (m : Fl rnd), m.val ≤ B →
    (l.foldl (fun m j => if c j < m then m else c j) m).val ≤ B
  | [], m, h => h
  | a :: l, m, h => by
    refine fold_max_le c B hc l _ ?_
    dsimp only
    split_ifs
    · exact h
    · exact hc a

/-- A vertex beyond the bounding box is not searched for; the place recorded for it is the start. -/
theorem outside_place {N : Nat} (hN : KeepsInts rnd N) (h31 : 2 ^ 31 ≤ N) (g : Gels (Fl rnd)) (hg : FindPoint.KeepsSizes g) (dims : Fin 2 → Nat) (per : Fin 2 → Int)
    (coords : Fin 2 → Nat → Fl rnd) (hc : ∀ i k, (coords i k).val ≤ 1) :
    vertexSearch g dims per coords (fun _ => ⟨100⟩) = .ok (-3, FindOverlap.startIndices dims, []) := by
  set f : Finder (Fl rnd) 2 := (ovFinder dims per coords).reset (FindOverlap.startIndices dims) (fun _ => ⟨100⟩) with hf
  obtain ⟨-, slvr, hs, hok⟩ := ready_reset (ovFinder dims per coords) (FindOverlap.startIndices dims) (fun _ => ⟨100⟩) (ready_setGrid _ _ _ _)
  have hb : f.bounds = some _ := rfl
  have heps : (FOps.eps100 : Fl rnd).val ≤ 1 := by
    have := hN.le (k := 1) (by omega) (show (100 / 2 ^ 52 : ℝ) ≤ ((1 : Nat) : ℝ) by norm_num)
    rwa [Nat.cast_one] at this
  have hbig : (-(FOps.big : Fl rnd)).val ≤ 1 := by
    have : (0 : ℝ) ≤ (FOps.big : Fl rnd).val := hN.nonneg (sub_nonneg.mpr (pow_le_pow_right₀ (by norm_num) (by norm_num)))
    show -(FOps.big : Fl rnd).val ≤ 1
    linarith
  have hn := next_eq g hg (by norm_num) f _ hb slvr hs hok
  rw [if_pos] at hn
  · unfold vertexSearch searchFrom
    rw [← hf]
    unfold searchLoop
    rw [hn]
    rfl
  · unfold Finder.inside
    rw [List.all_eq_false]
    refine ⟨0, List.mem_finRange _, ?_⟩
    rw [Bool.and_eq_true, decide_eq_true_iff, decide_eq_true_iff]
    rintro ⟨-, h⟩
    have h1 := fold_max_le (coords 0) 1 (hc 0) (List.range (∏ i, dims i)) (-FOps.big) hbig
    have h2 : (100 : ℝ) ≤ rnd (_ + (FOps.eps100 : Fl rnd).val) := h
    have h3 := h2.trans (hN.mono (add_le_add h1 heps))
    have h4 := hN.int 2 (by omega)
    norm_num at h3 h4
    rw [h4] at h3
    norm_num at h3

/-- With 53 binary digits: a grid of 3 by 4 nodes with coordinates up to 1, and the polygon with the only vertex (100, 100), outside: the cell with number 6, of the start,
is reported. -/
example (per : Fin 2 → Int) (coords : Fin 2 → Nat → Fl (nearest 53)) (hc : ∀ i k, (coords i k).val ≤ 1) :
    ∃ o', (((FindOverlap.new : Overlap (Fl (nearest 53))).setSrcGrid ![3, 4] per coords).setPolygonPoints 1 fun _ => ⟨100⟩).findSrcCellIndices
      (nearGels (nearest 53)) = .ok o' ∧ 6 ∈ o'.srcCellFlatInds := by
  have hN := nearest_ints 53 (by norm_num)
  have hr := nearest_rounds 53
  have h31 : 2 ^ 31 ≤ 2 ^ 53 - 1 := by norm_num
  have hg : FindPoint.KeepsSizes (nearGels (nearest 53)) := nearGels_double.sizes
  have hv := outside_place hN h31 (nearGels (nearest 53)) hg ![3, 4] per coords hc
  have key : ∀ (m a b : Nat) (q lo hi : ℝ), m ≤ 4 → a ≤ 2 ^ 31 → b ≤ 2 ^ 31 → q = a / b → 1 ≤ q → q ≤ 3 → (lo + 1 / 100) * (q + 1 / 1000) ≤ m →
      (m : ℝ) ≤ (hi - 1 / 100) * (q - 1 / 1000) → 0 ≤ lo → hi ≤ 4 →
      lo < ((m : Fl (nearest 53)) / ((a : Nat) / (b : Nat))).val ∧ ((m : Fl (nearest 53)) / ((a : Nat) / (b : Nat))).val < hi := by
    intro m a b q lo hi hm ha hb hq h1 h3 hlo hhi hl0 hh4
    have em : ((m : Nat) : Fl (nearest 53)).val = m := cast_fl hN (by omega)
    have ea : ((a : Nat) : Fl (nearest 53)).val = a := cast_fl hN (by omega)
    have eb : ((b : Nat) : Fl (nearest 53)).val = b := cast_fl hN (by omega)
    have hq' := hr.err q
    rw [abs_of_nonneg (by linarith : (0 : ℝ) ≤ q)] at hq'
    rw [Fl.div_val, em, Fl.div_val, ea, eb, ← hq]
    set q' := nearest 53 q with hq'def
    have hu : (2 : ℝ) ^ (-((53 : Nat) : ℤ)) ≤ 1 / 10 ^ 15 := by norm_num
    have hu0 : (0 : ℝ) ≤ (2 : ℝ) ^ (-((53 : Nat) : ℤ)) := by positivity
    have e1 : (2 : ℝ) ^ (-((53 : Nat) : ℤ)) * q ≤ 1 / 10 ^ 15 * 3 := mul_le_mul hu h3 (by linarith) (by norm_num)
    have b1 := (abs_le.1 hq').1
    have b2 := (abs_le.1 hq').2
    have q1 : q - 1 / 1000 ≤ q' := by norm_num at e1 b1 ⊢; linarith
    have q2 : q' ≤ q + 1 / 1000 := by norm_num at e1 b2 ⊢; linarith
    have hqp : 0 < q' := by linarith
    have d1 : lo + 1 / 100 ≤ m / q' := by
      rw [le_div_iff₀ hqp]
      exact (mul_le_mul_of_nonneg_left q2 (by linarith)).trans hlo
    have hm0 : (0 : ℝ) ≤ m := Nat.cast_nonneg _
    have hh0 : 0 ≤ hi - 1 / 100 := by
      by_contra hneg
      have : (hi - 1 / 100) * (q - 1 / 1000) < 0 := mul_neg_of_neg_of_pos (not_le.1 hneg) (by linarith)
      linarith
    have d2 : m / q' ≤ hi - 1 / 100 := by
      rw [div_le_iff₀ hqp]
      exact hhi.trans (mul_le_mul_of_nonneg_left q1 hh0)
    have hd := hr.err ((m : ℝ) / q')
    rw [abs_of_nonneg (by positivity : (0 : ℝ) ≤ (m : ℝ) / q')] at hd
    have e2 : (2 : ℝ) ^ (-((53 : Nat) : ℤ)) * (m / q') ≤ 1 / 10 ^ 15 * 4 := mul_le_mul hu (by linarith) (by positivity) (by norm_num)
    have c1 := (abs_le.1 hd).1
    have c2 := (abs_le.1 hd).2
    constructor
    · norm_num at e2 c1 d1 ⊢; linarith
    · norm_num at e2 c2 d2 ⊢; linarith
  set p : Fin 2 → Fl (nearest 53) := FindOverlap.startIndices ![3, 4] with hp
  have p0 : (1 : ℝ) < (p 0).val ∧ (p 0).val < 3 / 2 := key 3 2123353 1000000 (2123353 / 1000000) 1 (3 / 2) (by norm_num) (by norm_num) (by norm_num) (by norm_num)
    (by norm_num) (by norm_num) (by norm_num) (by norm_num) (by norm_num) (by norm_num)
  have p1 : (2 : ℝ) < (p 1).val ∧ (p 1).val < 5 / 2 := key 4 19647354 10000000 (19647354 / 10000000) 2 (5 / 2) (by norm_num) (by norm_num) (by norm_num) (by norm_num)
    (by norm_num) (by norm_num) (by norm_num) (by norm_num) (by norm_num) (by norm_num)
  have hin : InGrid ![3, 4] (vals p) := by
    intro i
    fin_cases i
    · show 0 ≤ (p 0).val ∧ (p 0).val ≤ ((3 : Nat) : ℝ) - 1
      constructor <;> norm_num <;> linarith [p0.1, p0.2]
    · show 0 ≤ (p 1).val ∧ (p 1).val ≤ ((4 : Nat) : ℝ) - 1
      constructor <;> norm_num <;> linarith [p1.1, p1.2]
  obtain ⟨o', e, hmem⟩ := C152_cover hr (by norm_num) hN h31 (nearGels (nearest 53)) hg ![3, 4] (by intro i; fin_cases i <;> simp) (by simp) per coords [] _ rfl 1
    (fun _ => ⟨100⟩) (by
      intro j
      refine ⟨0, by norm_num, _, _, _, hv, ?_⟩
      fin_cases j
      · show (p 0).val < ((3 : Nat) : ℝ) - 1
        norm_num; linarith [p0.2]
      · show (p 1).val < ((4 : Nat) : ℝ) - 1
        norm_num; linarith [p1.2]) 0 (by norm_num) _ _ _ hv hin
  refine ⟨o', e, ?_⟩
  have f0 : ⌊vals p 0⌋ = 1 := Int.floor_eq_iff.2 ⟨by push_cast; exact p0.1.le, by push_cast; exact p0.2.trans (by norm_num)⟩
  have f1 : ⌊vals p 1⌋ = 2 := Int.floor_eq_iff.2 ⟨by push_cast; exact p1.1.le, by push_cast; exact p1.2.trans (by norm_num)⟩
  have : ((cellLo ![3, 4] (vals p) 0 * (![3, 4] : Fin 2 → Nat) 1 + cellLo ![3, 4] (vals p) 1 : Nat) : Int) = 6 := by
    unfold cellLo
    rw [f0, f1]
    rfl
  rwa [this] at hmem

end Sg.Props
