import Verif.Model.FindOverlap
import Verif.Proof.NodeInterp
import Verif.Props.NodeInterp
import Verif.Props.BoxIterator
/-
Properties C42-C44 of the search of candidate cells.
-/
namespace Sg.Props
open Sg Sg.FindPoint Sg.LinearSolve Sg.Spec Sg.FindOverlap Sg.NodeInterp

/-- Calls a user may make once the source grid is set. -/
inductive OverlapCall (F : Type)
  | setPolygon (numPoints : Nat) (coords : Nat → F)
  | find

section
variable {F : Type} [Zero F] [One F] [Add F] [Sub F] [Mul F] [Div F] [Neg F] [LT F] [DecidableLT F]
  [LE F] [DecidableLE F] [DecidableEq F] [NatCast F] [IntCast F] [FOps F]

/-- A sequence of calls. -/
def runOverlap (g : Gels F) : Overlap F → List (OverlapCall F) → Cxx (Overlap F)
  | o, [] => .ok o
  | o, .setPolygon n c :: cs => runOverlap g (o.setPolygonPoints n c) cs
  | o, .find :: cs => do let o' ← o.findSrcCellIndices g; runOverlap g o' cs

/-- A new finder with the settings of the search of cells. -/
def ovFinder (dims : Fin 2 → Nat) (per : Fin 2 → Int) (coords : Fin 2 → Nat → F) : Finder F 2 :=
  (Finder.new 100 ((1 : F) / ((1000000 : Nat) : F))).setGrid dims per coords

/-- Index position of a vertex: result of a search by a new finder from the fixed start position. -/
def vertexSearch (g : Gels F) (dims : Fin 2 → Nat) (per : Fin 2 → Int) (coords : Fin 2 → Nat → F) (pt : Fin 2 → F) :
    Cxx (Int × (Fin 2 → F) × List F) :=
  searchFrom g (ovFinder dims per coords) (FindOverlap.startIndices dims) pt 100
end

section exact
set_option linter.unusedSectionVars false
variable {K : Type} [Field K] [LinearOrder K] [IsStrictOrderedRing K] [FloorRing K] [FOps K] [FOpsLaws K]

/-- Position moved to the nearest one of the grid. -/
def clampTo (dims : Fin 2 → Nat) (d : Fin 2 → K) : Fin 2 → K := fun j => max 0 (min (d j) ((dims j : K) - 1))

theorem clamp_inGrid (dims : Fin 2 → Nat) (hd : ∀ i, 2 ≤ dims i) (d : Fin 2 → K) : InGrid dims (clampTo dims d) := by
  intro j
  have h : (0 : K) ≤ (dims j : K) - 1 := by
    have : (2 : K) ≤ (dims j : K) := by exact_mod_cast hd j
    linarith
  unfold clampTo
  exact ⟨le_max_left _ _, max_le h (min_le_right _ _)⟩

theorem clamp_id (dims : Fin 2 → Nat) (d : Fin 2 → K) (h : InGrid dims d) : clampTo dims d = d := by
  funext j
  obtain ⟨h0, h1⟩ := h j
  unfold clampTo
  rw [min_eq_left h1, max_eq_right h0]

theorem start_okPos (dims : Fin 2 → Nat) (hd : ∀ i, 2 ≤ dims i) (hp : dims 0 * dims 1 ≤ 2147483647) :
    OkPos (FindOverlap.startIndices dims : Fin 2 → K) := by
  intro i
  have hle : dims 0 ≤ 2147483647 ∧ dims 1 ≤ 2147483647 := by
    have h0 := hd 0; have h1 := hd 1
    constructor <;> nlinarith
  have gen : ∀ (m : Nat) (q : K), 1 ≤ q → m ≤ 2147483647 → inI32 ⌊(m : K) / q⌋ := by
    intro m q hq hm
    have h0 : (0 : K) ≤ (m : K) / q := div_nonneg (Nat.cast_nonneg _) (by linarith)
    have h1 : (m : K) / q ≤ (m : K) := div_le_self (Nat.cast_nonneg _) hq
    have h2 : 0 ≤ ⌊(m : K) / q⌋ := Int.floor_nonneg.2 h0
    have h3 : ⌊(m : K) / q⌋ ≤ ⌊(m : K)⌋ := Int.floor_mono h1
    rw [Int.floor_natCast] at h3
    constructor <;> omega
  unfold FindOverlap.startIndices
  fin_cases i
  · exact gen _ _ (by norm_num) hle.1
  · exact gen _ _ (by norm_num) hle.2

theorem update_eq (dims : Fin 2 → Nat) (hd : ∀ i, 2 ≤ dims i) (d : Fin 2 → K) (c : Corners K) (hlo : InGrid dims c.lo)
    (hhi : InGrid dims c.hi) (j : Fin 2) :
    (c.update dims d).lo j = min (clampTo dims d j) (c.lo j) ∧ (c.update dims d).hi j = max (clampTo dims d j) (c.hi j) := by
  have e : ((dims j - 1 : Nat) : K) = (dims j : K) - 1 := by
    push_cast [Nat.cast_sub (show 1 ≤ dims j by have := hd j; omega)]; ring
  have h : (0 : K) ≤ (dims j : K) - 1 := by
    have : (2 : K) ≤ (dims j : K) := by exact_mod_cast hd j
    linarith
  obtain ⟨l0, l1⟩ := hlo j
  obtain ⟨k0, k1⟩ := hhi j
  unfold Corners.update clampTo
  dsimp only
  rw [e]
  constructor
  · rcases lt_or_ge (d j) (c.lo j) with h1 | h1
    · rw [if_pos h1]
      have h2 : d j ≤ (dims j : K) - 1 := h1.le.trans l1
      rw [min_eq_left h2]
      split_ifs with h3
      · rw [max_eq_right h3, min_eq_left h1.le]
      · rw [max_eq_left (not_le.1 h3).le, min_eq_left l0]
    · rw [if_neg (not_lt.2 h1), if_pos l0, min_eq_right]
      exact le_max_of_le_right (le_min h1 l1)
  · rcases lt_or_ge (c.hi j) (d j) with h1 | h1
    · rw [if_pos h1]
      split_ifs with h3
      · rw [min_eq_left h3, max_eq_right (k0.trans h1.le), max_eq_left h1.le]
      · rw [min_eq_right (not_le.1 h3).le, max_eq_right h, max_eq_left k1]
    · rw [if_neg (not_lt.2 h1), if_pos k1, max_eq_right]
      exact max_le k0 ((min_le_left _ _).trans h1)

/-- Corners of the positions met so far. -/
structure BoxOf (dims : Fin 2 → Nat) (pos : Nat → Fin 2 → K) (k : Nat) (c : Corners K) : Prop where
  lo : InGrid dims c.lo
  hi : InGrid dims c.hi
  all : ∀ i < k, ∀ j, c.lo j ≤ clampTo dims (pos i) j ∧ clampTo dims (pos i) j ≤ c.hi j
  reached : ∀ j, (∃ i < k, c.lo j = clampTo dims (pos i) j) ∨ c.lo j = (dims j : K) - 1
  reachedHi : ∀ j, (∃ i < k, c.hi j = clampTo dims (pos i) j) ∨ c.hi j = 0

/-- What is set. -/
structure OvSet (dims : Fin 2 → Nat) (per : Fin 2 → Int) (coords : Fin 2 → Nat → K) (o : Overlap K) : Prop where
  ready : Ready o.finder
  grid : SameGrid (ovFinder dims per coords) o.finder
  nodes : o.srcNodeDims = dims
  prod : o.srcCellProdDims = fun j => if j = 0 then 1 * dims 1 else 1
  eps : o.eps = (1 : K) / ((100 : Nat) : K)
  gridSet : o.gridSet = true

theorem ovSet_grid (dims : Fin 2 → Nat) (per : Fin 2 → Int) (coords : Fin 2 → Nat → K) :
    OvSet dims per coords ((FindOverlap.new : Overlap K).setSrcGrid dims per coords) :=
  ⟨ready_setGrid _ _ _ _, sameGrid_refl _, rfl, rfl, rfl, rfl⟩

theorem box_ok (g : Gels K) (hg : KeepsSizes g) (dims : Fin 2 → Nat) (hd : ∀ i, 2 ≤ dims i)
    (hp : dims 0 * dims 1 ≤ 2147483647) (per : Fin 2 → Int) (coords : Fin 2 → Nat → K) (o : Overlap K)
    (ho : OvSet dims per coords o) (np : Nat) (pc : Nat → K) :
    ∃ pos : Nat → Fin 2 → K, (∀ i < np, ∃ code h, vertexSearch g dims per coords (fun j => pc (2 * i + j)) =
        .ok (code, pos i, h) ∧ (InGrid dims (pos i) ∨ code = -3)) ∧
      ∃ f c, (o.setPolygonPoints np pc).findFloatIndexBoxOfPolygon g = .ok (f, c) ∧ BoxOf dims pos np c ∧ Ready f ∧
        SameGrid (ovFinder dims per coords) f := by
  have hle : ∀ i, dims i ≤ 2147483647 := by
    have h0 := hd 0; have h1 := hd 1
    intro i; fin_cases i
    · show dims 0 ≤ _; nlinarith
    · show dims 1 ≤ _; nlinarith
  set f0 : Finder K 2 := ovFinder dims per coords with hf0
  have hgood : ∀ (f : Finder K 2) (t : Fin 2 → K), Ready f → SameGrid f0 f →
      Good (f.reset (FindOverlap.startIndices dims) t) := by
    intro f t hr hq
    refine ⟨ready_reset _ _ _ hr, ?_, ?_, start_okPos dims hd hp⟩
    · show GoodDims f.dims
      rw [hq.dims]
      exact fun i => ⟨hd i, hle i⟩
    · intro i
      show (f.coords i).length = ∏ k, f.dims k
      rw [hq.coords, hq.dims]
      simp [hf0, ovFinder, Finder.setGrid]
  have hfuel : ∀ f : Finder K 2, SameGrid f0 f → f.fuelOf = 100 := by
    intro f hq
    unfold Finder.fuelOf
    rw [hq.nitermax]
    rfl
  have hv : ∀ i, ∃ code pos h, vertexSearch g dims per coords (fun j => pc (2 * i + j)) = .ok (code, pos, h) ∧
      (InGrid dims pos ∨ code = -3) := by
    intro i
    obtain ⟨c, s', h1, h2, h3⟩ := loop_good g hg (by norm_num) 100 _
      (hgood f0 (fun j => pc (2 * i + j)) (ready_setGrid _ _ _ _) (sameGrid_refl _)) (by norm_num)
    refine ⟨c, s'.dIndices, s'.errorHistory, ?_, ?_⟩
    · unfold vertexSearch searchFrom
      rw [← hf0, h1]; rfl
    · rcases h3 with h3 | h3
      · left
        rwa [(loop_frame g hg (by norm_num) 100 _ c s' (ready_reset _ _ _ (ready_setGrid _ _ _ _)) h1).2.1.dims] at h3
      · exact .inr h3.2
  choose code pos hist hvs hin using hv
  refine ⟨pos, fun i _ => ⟨_, _, hvs i, hin i⟩, ?_⟩
  have h0 : ∀ j, (0 : K) ≤ (dims j : K) - 1 := fun j => by
    have : (2 : K) ≤ (dims j : K) := by exact_mod_cast hd j
    linarith
  have hcast : ∀ j, ((dims j - 1 : Nat) : K) = (dims j : K) - 1 := fun j => by
    push_cast [Nat.cast_sub (show 1 ≤ dims j by have := hd j; omega)]; ring
  obtain ⟨⟨f, c⟩, h1, h2, h3, h4⟩ := forN_inv
    (fun k (s : Finder K 2 × Corners K) => BoxOf dims pos k s.2 ∧ Ready s.1 ∧ SameGrid f0 s.1)
    (fun i s => (o.setPolygonPoints np pc).point g i s) np
    (o.finder, { lo := fun j => ((o.srcNodeDims j - 1 : Nat) : K), hi := fun _ => 0 })
    ⟨⟨by
        intro j
        dsimp only
        rw [ho.nodes, hcast j]
        exact ⟨h0 j, le_refl _⟩, fun j => ⟨le_refl _, h0 j⟩, by simp, fun j => .inr (by dsimp only; rw [ho.nodes, hcast j]), fun j => .inr rfl⟩, ho.ready, ho.grid⟩
    (by
      rintro k ⟨f, c⟩ hk ⟨hb, hr, hq⟩
      dsimp only at hb hr hq
      have ht : (forAxes fun j : Fin 2 => vget (o.setPolygonPoints np pc).polyPoints (k * 2 + j)) =
          .ok (fun j : Fin 2 => pc (2 * k + j)) := by
        refine forAxes_ok _ _ fun j => ?_
        show vget ((List.range (2 * np)).map pc) (k * 2 + j) = _
        rw [vget_eq_ok, List.getElem?_map, List.getElem?_range (by omega), Option.map_some, mul_comm]
      have hs := loop_same g hg (by norm_num) f0 f (ready_setGrid _ _ _ _) hr hq (FindOverlap.startIndices dims)
        (fun j => pc (2 * k + j)) 100
      have hv := hvs k
      unfold vertexSearch searchFrom at hv
      rw [← hf0] at hv
      obtain ⟨⟨c0, s0⟩, hs0, hv⟩ := bind_ok_inv hv
      simp only [pure, Except.pure, Except.ok.injEq, Prod.mk.injEq] at hv
      rw [hs0] at hs
      cases hx : searchLoop g 100 (f.reset (FindOverlap.startIndices dims) fun j => pc (2 * k + j)) with
      | error e => rw [hx] at hs; exact hs.elim
      | ok r =>
        rw [hx] at hs
        obtain ⟨c1, f1⟩ := r
        obtain ⟨_, hdI⟩ := hs
        dsimp only at hdI
        have hfr := loop_frame g hg (by norm_num) 100 _ c1 f1 (ready_reset f _ _ hr) hx
        refine ⟨(f1, c.update dims (pos k)), ?_, ?_, hfr.1, ?_⟩
        · unfold Overlap.point
          dsimp only
          rw [ht]
          simp only [bind, Except.bind]
          rw [hfuel f hq]
          have e1 : (o.setPolygonPoints np pc).srcNodeDims = dims := ho.nodes
          rw [e1, hx]
          simp only [pure, Except.pure]
          rw [hdI, hv.2.1]
        · have hu := update_eq dims hd (pos k) c hb.lo hb.hi
          have hc := clamp_inGrid dims hd (pos k)
          dsimp only
          refine ⟨?_, ?_, ?_, ?_, ?_⟩
          · intro j
            rw [(hu j).1]
            exact ⟨le_min (hc j).1 (hb.lo j).1, (min_le_left _ _).trans (hc j).2⟩
          · intro j
            rw [(hu j).2]
            exact ⟨(hc j).1.trans (le_max_left _ _), max_le (hc j).2 (hb.hi j).2⟩
          · intro i hi j
            rw [(hu j).1, (hu j).2]
            rcases Nat.lt_succ_iff_lt_or_eq.1 hi with hi | rfl
            · have := hb.all i hi j
              exact ⟨(min_le_right _ _).trans this.1, this.2.trans (le_max_right _ _)⟩
            · exact ⟨min_le_left _ _, le_max_left _ _⟩
          · intro j
            rw [(hu j).1]
            rcases le_total (clampTo dims (pos k) j) (c.lo j) with h | h
            · exact .inl ⟨k, Nat.lt_succ_self k, min_eq_left h⟩
            · rw [min_eq_right h]
              rcases hb.reached j with ⟨i, hi, he⟩ | he
              · exact .inl ⟨i, hi.trans (Nat.lt_succ_self k), he⟩
              · exact .inr he
          · intro j
            rw [(hu j).2]
            rcases le_total (c.hi j) (clampTo dims (pos k) j) with h | h
            · exact .inl ⟨k, Nat.lt_succ_self k, max_eq_left h⟩
            · rw [max_eq_right h]
              rcases hb.reachedHi j with ⟨i, hi, he⟩ | he
              · exact .inl ⟨i, hi.trans (Nat.lt_succ_self k), he⟩
              · exact .inr he
        · exact ⟨hfr.2.1.coords.trans hq.coords, hfr.2.1.bounds.trans hq.bounds, hfr.2.1.per.trans hq.per,
            hfr.2.1.dims.trans hq.dims, hfr.2.1.nitermax.trans hq.nitermax, hfr.2.1.tolpos.trans hq.tolpos⟩)
  refine ⟨f, c, ?_, h2, h3, h4⟩
  unfold Overlap.findFloatIndexBoxOfPolygon
  rw [show (o.setPolygonPoints np pc).gridSet = true from ho.gridSet]
  exact h1

theorem collect_ok {α : Type} (f : Nat → Cxx α) (v : Nat → α) (n : Nat) (h : ∀ i < n, f i = .ok (v i)) :
    forN n [] (fun i l => do let k ← f i; return l ++ [k]) = .ok ((List.range n).map v) := by
  obtain ⟨l, h1, h2⟩ := forN_inv (fun k (l : List α) => l = (List.range k).map v)
    (fun i l => do let k ← f i; return l ++ [k]) n [] rfl (by
      intro k l hk hl
      refine ⟨l ++ [v k], ?_, ?_⟩
      · rw [h k hk]; rfl
      · rw [hl, List.range_succ, List.map_append]; rfl)
  rw [h1, h2]

/-- Flat indices of the cells of a box. -/
theorem boxCells (d1 : Nat) (o : Overlap K) (hpd : o.srcCellProdDims = fun j => if j = 0 then 1 * d1 else 1)
    (d0 : Nat) (hp : d0 * d1 ≤ 2147483647) (l0 h0 l1 h1 : Int) (hl0 : 0 ≤ l0) (hl1 : 0 ≤ l1) (hlh0 : l0 ≤ h0) (hlh1 : l1 ≤ h1)
    (hh0 : h0 ≤ (d0 : Int) - 1) (hh1 : h1 ≤ (d1 : Int) - 1) :
    ∃ inds : List Int, (do
        let box ← BoxIterator.new [(l0, h0), (l1, h1)]
        forN box.getNumberOfElements.toNat [] fun i l => do
          let e ← box.getElement i
          let k ← o.cellIndx e
          return l ++ [k]) = .ok inds ∧ inds.Nodup ∧
      ∀ c, c ∈ inds ↔ ∃ i j : Int, (l0 ≤ i ∧ i < h0) ∧ (l1 ≤ j ∧ j < h1) ∧ c = i * d1 + j := by
  have hd0 : d0 ≤ 2147483647 ∨ d1 = 0 := by
    rcases Nat.eq_zero_or_pos d1 with h | h
    · exact .inr h
    · exact .inl (by nlinarith)
  have hd1 : d1 ≤ 2147483647 ∨ d0 = 0 := by
    rcases Nat.eq_zero_or_pos d0 with h | h
    · exact .inr h
    · exact .inl (by nlinarith)
  have hvol : (h0 - l0) * (h1 - l1) ≤ 2147483647 := by
    have a1 : (h0 - l0) * (h1 - l1) ≤ (d0 : Int) * (d1 : Int) :=
      mul_le_mul (by omega) (by omega) (by omega) (by omega)
    have a2 : (d0 : Int) * (d1 : Int) ≤ 2147483647 := by exact_mod_cast hp
    omega
  rcases Classical.em (l0 < h0 ∧ l1 < h1) with ⟨p0, p1⟩ | hemp
  · have hne : NonEmptyAxes [(l0, h0), (l1, h1)] := by
      intro ax hax
      simp only [List.mem_cons, List.not_mem_nil, or_false] at hax
      rcases hax with rfl | rfl
      · exact p0
      · exact p1
    have hia : IntAxes [(l0, h0), (l1, h1)] := by
      intro ax hax
      simp only [List.mem_cons, List.not_mem_nil, or_false] at hax
      rcases hax with rfl | rfl <;> dsimp only <;> refine ⟨⟨?_, ?_⟩, ?_, ?_⟩ <;> omega
    have hv : volume [(l0, h0), (l1, h1)] = (h0 - l0) * (h1 - l1) := by simp [volume]
    have hnew := BoxIterator.new_ok hne (by rw [hv]; exact hvol)
    rw [hnew]
    simp only [bind, Except.bind]
    have hnum : (BoxIterator.good [(l0, h0), (l1, h1)]).getNumberOfElements = (h0 - l0) * (h1 - l1) := hv
    rw [hnum]
    set n0 := h0 - l0 with hn0
    set n1 := h1 - l1 with hn1
    have hn0p : 0 < n0 := by omega
    have hn1p : 0 < n1 := by omega
    have helem : ∀ i : Nat, i < (n0 * n1).toNat → ((BoxIterator.good [(l0, h0), (l1, h1)]).getElement i =
        .ok [l0 + (i : Int) / n1, l1 + (i : Int) % n1]) := by
      intro i hi
      have hi' : (i : Int) < n0 * n1 := by omega
      have e := BoxIterator.getElementLoop_ok (i : Int) (by omega) (by omega) [(l0, h0), (l1, h1)] hne hia
        (BoxIterator.ext_le hne (by rw [hv]; exact hvol))
      have hq : (i : Int) / n1 < n0 := Int.ediv_lt_of_lt_mul hn1p hi'
      have hq0 : 0 ≤ (i : Int) / n1 := Int.ediv_nonneg (by omega) (by omega)
      refine Eq.trans e ?_
      simp only [List.map_cons, List.map_nil, BoxIterator.dig, List.prod_cons, List.prod_nil, mul_one, Int.ediv_one,
        List.zipWith_cons_cons, List.zipWith_nil_left]
      rw [← hn1, ← hn0, Int.emod_eq_of_lt hq0 hq]
    have hcell : ∀ i : Nat, i < (n0 * n1).toNat → (do
        let e ← (BoxIterator.good [(l0, h0), (l1, h1)]).getElement i
        o.cellIndx e) =
          .ok ((l0 + (i : Int) / n1) * d1 + (l1 + (i : Int) % n1)) := by
      intro i hi
      have hi' : (i : Int) < n0 * n1 := by omega
      have hq : (i : Int) / n1 < n0 := Int.ediv_lt_of_lt_mul hn1p hi'
      have hq0 : 0 ≤ (i : Int) / n1 := Int.ediv_nonneg (by omega) (by omega)
      have hr0 : 0 ≤ (i : Int) % n1 := Int.emod_nonneg _ (by omega)
      have hr1 : (i : Int) % n1 < n1 := Int.emod_lt_of_pos _ hn1p
      rw [helem i hi]
      simp only [bind, Except.bind]
      unfold Overlap.cellIndx
      rw [hpd]
      set a := l0 + (i : Int) / n1 with ha
      set b := l1 + (i : Int) % n1 with hb
      have hA : 0 ≤ a ∧ a < d0 := by omega
      have hB : 0 ≤ b ∧ b < d1 := by omega
      have hmul : 0 ≤ (d1 : Int) * a ∧ (d1 : Int) * a ≤ 2147483647 := by
        constructor
        · exact mul_nonneg (by omega) hA.1
        · have : (d1 : Int) * a ≤ (d1 : Int) * d0 := mul_le_mul_of_nonneg_left hA.2.le (by omega)
          have a2 : (d0 : Int) * (d1 : Int) ≤ 2147483647 := by exact_mod_cast hp
          rw [mul_comm (d0 : Int)] at a2
          omega
      simp only [if_true, bind, Except.bind, vget, List.getElem?_cons_zero, List.getElem?_cons_succ, one_mul, imul, chk,
        if_neg (show ¬ ((1 : Fin 2) = 0) by decide), Nat.cast_one, pure, Except.pure]
      rw [if_pos (show inI32 ((d1 : Int) * a) by constructor <;> omega)]
      dsimp only
      rw [if_pos (show inI32 b by constructor <;> omega)]
      dsimp only
      congr 1
      ring
    have hcol := collect_ok (fun i : Nat => do
        let e ← (BoxIterator.good [(l0, h0), (l1, h1)]).getElement i; o.cellIndx e)
      (fun i => (l0 + (i : Int) / n1) * d1 + (l1 + (i : Int) % n1)) (n0 * n1).toNat hcell
    refine ⟨(List.range (n0 * n1).toNat).map fun i : Nat => (l0 + (i : Int) / n1) * d1 + (l1 + (i : Int) % n1), ?_, ?_, ?_⟩
    · rw [← hcol]
      congr 1
      funext i l
      simp only [bind, Except.bind]
      cases (BoxIterator.good [(l0, h0), (l1, h1)]).getElement i <;> rfl
    · refine List.Nodup.map_on ?_ (List.nodup_range)
      intro i hi j hj hij
      rw [List.mem_range] at hi hj
      have key : ∀ i : Nat, 0 ≤ l1 + (i : Int) % n1 ∧ l1 + (i : Int) % n1 < d1 := by
        intro i
        have hr0 : 0 ≤ (i : Int) % n1 := Int.emod_nonneg _ (by omega)
        have hr1 : (i : Int) % n1 < n1 := Int.emod_lt_of_pos _ hn1p
        omega
      have k1 := key i
      have k2 := key j
      have e2 : l1 + (i : Int) % n1 = l1 + (j : Int) % n1 := by
        have := congrArg (· % (d1 : Int)) hij
        rwa [Int.add_comm ((l0 + (i : Int) / n1) * d1), Int.add_comm ((l0 + (j : Int) / n1) * d1), Int.add_mul_emod_self_right,
          Int.add_mul_emod_self_right, Int.emod_eq_of_lt k1.1 k1.2, Int.emod_eq_of_lt k2.1 k2.2] at this
      have e1 : (l0 + (i : Int) / n1) * (d1 : Int) = (l0 + (j : Int) / n1) * d1 := by omega
      have hd1p : (d1 : Int) ≠ 0 := by omega
      have e3 := mul_right_cancel₀ hd1p e1
      have a1 := Int.mul_ediv_add_emod (i : Int) n1
      have a2 := Int.mul_ediv_add_emod (j : Int) n1
      have e4 : (i : Int) / n1 = (j : Int) / n1 := by omega
      rw [e4] at a1
      omega
    · intro c
      rw [List.mem_map]
      constructor
      · rintro ⟨i, hi, rfl⟩
        rw [List.mem_range] at hi
        have hi' : (i : Int) < n0 * n1 := by omega
        have hq : (i : Int) / n1 < n0 := Int.ediv_lt_of_lt_mul hn1p hi'
        have hq0 : 0 ≤ (i : Int) / n1 := Int.ediv_nonneg (by omega) (by omega)
        have hr0 : 0 ≤ (i : Int) % n1 := Int.emod_nonneg _ (by omega)
        have hr1 : (i : Int) % n1 < n1 := Int.emod_lt_of_pos _ hn1p
        exact ⟨_, _, by omega, by omega, rfl⟩
      · rintro ⟨i, j, hi, hj, rfl⟩
        have hnn : 0 ≤ (i - l0) * n1 + (j - l1) := add_nonneg (mul_nonneg (by omega) (by omega)) (by omega)
        refine ⟨((i - l0) * n1 + (j - l1)).toNat, ?_, ?_⟩
        · rw [List.mem_range]
          have : (i - l0) * n1 + (j - l1) < n0 * n1 := by
            have : (i - l0 + 1) * n1 ≤ n0 * n1 := mul_le_mul_of_nonneg_right (by omega) (by omega)
            rw [add_mul, one_mul] at this
            omega
          omega
        · rw [Int.toNat_of_nonneg hnn]
          have e1 : ((i - l0) * n1 + (j - l1)) / n1 = i - l0 := by
            rw [Int.add_comm, Int.add_mul_ediv_right _ _ (by omega), Int.ediv_eq_zero_of_lt (by omega) (by omega), zero_add]
          have e2 : ((i - l0) * n1 + (j - l1)) % n1 = j - l1 := by
            rw [Int.add_comm, Int.add_mul_emod_self_right, Int.emod_eq_of_lt (by omega) (by omega)]
          rw [e1, e2]
          ring
  · -- empty
    have hz : (h0 - l0) * (h1 - l1) = 0 := by
      rcases not_and_or.1 hemp with h | h
      · rw [show h0 - l0 = 0 by omega, zero_mul]
      · rw [show h1 - l1 = 0 by omega, mul_zero]
    have e0 : isub h0 l0 = .ok (h0 - l0) := by unfold isub chk; rw [if_pos (by constructor <;> omega)]
    have e1 : isub h1 l1 = .ok (h1 - l1) := by unfold isub chk; rw [if_pos (by constructor <;> omega)]
    have e2 : imul 1 (h0 - l0) = .ok (h0 - l0) := by
      unfold imul chk; rw [one_mul, if_pos (by constructor <;> omega)]
    have e3 : imul (h0 - l0) (h1 - l1) = .ok 0 := by
      unfold imul chk; rw [hz, if_pos (by constructor <;> omega)]
    have e4 : imul 1 (h1 - l1) = .ok (h1 - l1) := by
      unfold imul chk; rw [one_mul, if_pos (by constructor <;> omega)]
    have hnew : BoxIterator.new [(l0, h0), (l1, h1)] =
        .ok { lowEnd := [l0, l1], dims := [h0 - l0, h1 - l1], dimProd := [h1 - l1, 1], numElems := 0 } := by
      simp only [BoxIterator.new, BoxIterator.mkDims, BoxIterator.mkNumElems, BoxIterator.mkDimProd, e0, e1, e2, e3, e4, bind, Except.bind,
        pure, Except.pure, vget, List.getElem?_cons_zero, List.map_cons, List.map_nil]
    refine ⟨[], ?_, List.nodup_nil, ?_⟩
    · rw [hnew]; rfl
    · intro c
      constructor
      · intro h; cases h
      · rintro ⟨i, j, hi, hj, _⟩
        omega

/-- The box of indices made from the corners. -/
theorem boxInds_ok (dims : Fin 2 → Nat) (hd : ∀ i, 2 ≤ dims i) (hle : ∀ i, dims i ≤ 2147483647) (o : Overlap K)
    (hn : o.srcNodeDims = dims) (he : o.eps = (1 : K) / ((100 : Nat) : K)) (c : Corners K) (hlo : InGrid dims c.lo)
    (hhi : InGrid dims c.hi) (j : Fin 2) :
    o.boxInds c j = .ok (⌊c.lo j⌋, min ⌈c.hi j + 1 / 100⌉ ((dims j : Int) - 1)) ∧ 0 ≤ ⌊c.lo j⌋ := by
  obtain ⟨l0, l1⟩ := hlo j
  obtain ⟨k0, k1⟩ := hhi j
  have hf0 : 0 ≤ ⌊c.lo j⌋ := Int.floor_nonneg.2 l0
  have hf := FOpsLaws.floorI (c.lo j) (okPos_of_inGrid dims (fun i => ⟨hd i, hle i⟩) c.lo hlo j)
  have he' : o.eps = (1 : K) / 100 := by rw [he]; norm_num
  have hceil : ⌊-(c.hi j + 1 / 100)⌋ = -⌈c.hi j + 1 / 100⌉ := Int.floor_neg
  have hc1 : ⌈c.hi j + 1 / 100⌉ ≤ (dims j : Int) := by
    rw [Int.ceil_le]
    push_cast
    have : c.hi j + 1 / 100 ≤ (dims j : K) - 1 + 1 / 100 := by linarith
    have h2 : (1 : K) / 100 ≤ 1 := by norm_num
    linarith
  have hc0 : 0 ≤ ⌈c.hi j + 1 / 100⌉ := Int.ceil_nonneg (by positivity)
  have hd' := hle j
  have hf2 := FOpsLaws.floorI (-(c.hi j + 1 / 100)) (by rw [hceil]; constructor <;> omega)
  refine ⟨?_, hf0⟩
  unfold Overlap.boxInds ceilI
  rw [he', hf, hf2, hn, hceil]
  simp only [Option.map_some, neg_neg]
  rw [if_pos hf0]
  congr 2
  split_ifs with h
  · rw [min_eq_left h.le]
  · rw [min_eq_right (not_lt.1 h)]

theorem find_ok (g : Gels K) (hg : KeepsSizes g) (dims : Fin 2 → Nat) (hd : ∀ i, 2 ≤ dims i)
    (hp : dims 0 * dims 1 ≤ 2147483647) (per : Fin 2 → Int) (coords : Fin 2 → Nat → K) (o : Overlap K)
    (ho : OvSet dims per coords o) (np : Nat) (hnp : 1 ≤ np) (pc : Nat → K) :
    ∃ pos : Nat → Fin 2 → K, (∀ i < np, ∃ code h, vertexSearch g dims per coords (fun j => pc (2 * i + j)) =
        .ok (code, pos i, h) ∧ (InGrid dims (pos i) ∨ code = -3)) ∧
      ∃ c o', BoxOf dims pos np c ∧ (o.setPolygonPoints np pc).findSrcCellIndices g = .ok o' ∧ OvSet dims per coords o' ∧
        o'.srcCellFlatInds.Nodup ∧
        ∀ x, x ∈ o'.srcCellFlatInds ↔ ∃ i j : Int,
          (⌊c.lo 0⌋ ≤ i ∧ i < min ⌈c.hi 0 + 1 / 100⌉ ((dims 0 : Int) - 1)) ∧
          (⌊c.lo 1⌋ ≤ j ∧ j < min ⌈c.hi 1 + 1 / 100⌉ ((dims 1 : Int) - 1)) ∧ x = i * dims 1 + j := by
  have hle : ∀ i, dims i ≤ 2147483647 := by
    have h0 := hd 0; have h1 := hd 1
    intro i; fin_cases i
    · show dims 0 ≤ _; nlinarith
    · show dims 1 ≤ _; nlinarith
  obtain ⟨pos, hpos, f, c, hbox, hb, hr, hq⟩ := box_ok g hg dims hd hp per coords o ho np pc
  have hbi := boxInds_ok dims hd hle (o.setPolygonPoints np pc) ho.nodes ho.eps c hb.lo hb.hi
  have hlh : ∀ j, ⌊c.lo j⌋ ≤ min ⌈c.hi j + 1 / 100⌉ ((dims j : Int) - 1) := by
    intro j
    have h1 := hb.all 0 hnp j
    have h2 : c.lo j ≤ c.hi j := h1.1.trans h1.2
    refine le_min ?_ ?_
    · have hz : (0 : K) ≤ 1 / 100 := by norm_num
      have : c.lo j ≤ c.hi j + 1 / 100 := by linarith
      exact (Int.floor_le_ceil _).trans (Int.ceil_mono this)
    · have h3 := (hb.lo j).2
      have h4 : ((⌊c.lo j⌋ : Int) : K) ≤ (((dims j : Int) - 1 : Int) : K) := by
        push_cast; exact (Int.floor_le _).trans h3
      exact_mod_cast h4
  obtain ⟨inds, hinds, hnd, hmem⟩ := boxCells (dims 1) (o.setPolygonPoints np pc) ho.prod (dims 0) hp _ _ _ _
    (hbi 0).2 (hbi 1).2 (hlh 0) (hlh 1) (min_le_right _ _) (min_le_right _ _)
  refine ⟨pos, hpos, c, { o.setPolygonPoints np pc with finder := f, srcCellFlatInds := inds }, hb, ?_,
    ⟨hr, hq, ho.nodes, ho.prod, ho.eps, ho.gridSet⟩, hnd, hmem⟩
  unfold Overlap.findSrcCellIndices
  rw [hbox]
  simp only [bind, Except.bind]
  rw [(hbi 0).1, (hbi 1).1]
  dsimp only
  obtain ⟨bx, hbx, hinds⟩ := bind_ok_inv hinds
  rw [hbx]
  dsimp only
  simp only [bind, Except.bind] at hinds
  rw [hinds]
  rfl

theorem runOverlap_set (g : Gels K) (hg : KeepsSizes g) (dims : Fin 2 → Nat) (per : Fin 2 → Int)
    (coords : Fin 2 → Nat → K) : ∀ (cs : List (OverlapCall K)) (o0 o : Overlap K), OvSet dims per coords o0 →
    runOverlap g o0 cs = .ok o → OvSet dims per coords o
  | [], o0, o, h, e => by simp only [runOverlap, Except.ok.injEq] at e; exact e ▸ h
  | .setPolygon n c :: cs, o0, o, h, e =>
    runOverlap_set g hg dims per coords cs (o0.setPolygonPoints n c) o ⟨h.ready, h.grid, h.nodes, h.prod, h.eps, h.gridSet⟩ e
  | .find :: cs, o0, o, h, e => by
    unfold runOverlap at e
    obtain ⟨o1, h1, e⟩ := bind_ok_inv e
    refine runOverlap_set g hg dims per coords cs o1 o ?_ e
    unfold Overlap.findSrcCellIndices at h1
    obtain ⟨⟨f, c⟩, hb, h1⟩ := bind_ok_inv h1
    obtain ⟨b0, _, h1⟩ := bind_ok_inv h1
    obtain ⟨b1, _, h1⟩ := bind_ok_inv h1
    obtain ⟨bx, _, h1⟩ := bind_ok_inv h1
    obtain ⟨inds, _, h1⟩ := bind_ok_inv h1
    simp only [pure, Except.pure, Except.ok.injEq] at h1
    subst h1
    have gen : ∀ (m start : Nat) (a b : Finder K 2 × Corners K), Ready a.1 → SameGrid (ovFinder dims per coords) a.1 →
        forFrom start m a (fun i s => o0.point g i s) = .ok b → Ready b.1 ∧ SameGrid (ovFinder dims per coords) b.1 := by
      intro m
      induction m with
      | zero =>
        intro start a b hr hq h
        simp only [forFrom, Except.ok.injEq] at h
        subst h; exact ⟨hr, hq⟩
      | succ m ih =>
        intro start a b hr hq h
        unfold forFrom at h
        dsimp only at h
        cases hp : o0.point g start a with
        | error e => rw [hp] at h; cases h
        | ok s1 =>
          rw [hp] at h
          dsimp only at h
          unfold Overlap.point at hp
          obtain ⟨t, _, hp⟩ := bind_ok_inv hp
          obtain ⟨⟨c1, f1⟩, hs, hp⟩ := bind_ok_inv hp
          simp only [pure, Except.pure, Except.ok.injEq] at hp
          have hfr := loop_frame g hg (by norm_num) _ _ c1 f1 (ready_reset a.1 _ _ hr) hs
          subst hp
          refine ih (start + 1) _ b hfr.1 ?_ h
          exact ⟨hfr.2.1.coords.trans hq.coords, hfr.2.1.bounds.trans hq.bounds, hfr.2.1.per.trans hq.per,
            hfr.2.1.dims.trans hq.dims, hfr.2.1.nitermax.trans hq.nitermax, hfr.2.1.tolpos.trans hq.tolpos⟩
    unfold Overlap.findFloatIndexBoxOfPolygon forN at hb
    rw [h.gridSet] at hb
    cases hps : o0.polySet with
    | false => rw [hps] at hb; cases hb
    | true =>
    rw [hps] at hb
    obtain ⟨r, q⟩ := gen _ 0 _ _ h.ready h.grid hb
    exact ⟨r, q, h.nodes, h.prod, h.eps, h.gridSet⟩

/-- **C42** After any earlier use on this grid, for every polygon with at least one vertex, inside the grid or not, the
search of cells succeeds; the reported numbers are, without repetition, the numbers `i * dims[1] + j` of the cells
`(i, j)` of an index box `[lo, hi)` with `hi ≤ dims - 1`: all are cells of the grid (the cell `(i, j)` exists if
`i + 1 < dims[0]` and `j + 1 < dims[1]`). -/
theorem C42_valid_box (g : Gels K) (hg : KeepsSizes g) (dims : Fin 2 → Nat) (hd : ∀ i, 2 ≤ dims i)
    (hp : dims 0 * dims 1 ≤ 2147483647) (per : Fin 2 → Int) (coords : Fin 2 → Nat → K)
    (cs : List (OverlapCall K)) (o : Overlap K)
    (hrun : runOverlap g ((FindOverlap.new : Overlap K).setSrcGrid dims per coords) cs = .ok o)
    (np : Nat) (hnp : 1 ≤ np) (pc : Nat → K) :
    ∃ o', (o.setPolygonPoints np pc).findSrcCellIndices g = .ok o' ∧ o'.srcCellFlatInds.Nodup ∧
      ∃ lo hi : Fin 2 → Nat, (∀ j, lo j ≤ hi j ∧ hi j + 1 ≤ dims j) ∧
        ∀ x, x ∈ o'.srcCellFlatInds ↔ ∃ i j : Nat, (lo 0 ≤ i ∧ i < hi 0) ∧ (lo 1 ≤ j ∧ j < hi 1) ∧
          x = ((i * dims 1 + j : Nat) : Int) := by
  have hs := runOverlap_set g hg dims per coords cs _ o (ovSet_grid dims per coords) hrun
  obtain ⟨pos, hpos, c, o', hb, ho', _, hnd, hmem⟩ := find_ok g hg dims hd hp per coords o hs np hnp pc
  refine ⟨o', ho', hnd, fun j => ⌊c.lo j⌋.toNat, fun j => (min ⌈c.hi j + 1 / 100⌉ ((dims j : Int) - 1)).toNat, ?_, ?_⟩
  · intro j
    dsimp only
    have h1 := hb.all 0 hnp j
    have h2 : c.lo j ≤ c.hi j := h1.1.trans h1.2
    have hd' := hd j
    have h0 := (hb.lo j).1
    have h3 : ⌊c.lo j⌋ ≤ ⌈c.hi j + 1 / 100⌉ := by
      have hz : (0 : K) ≤ 1 / 100 := by norm_num
      have : c.lo j ≤ c.hi j + 1 / 100 := by linarith
      exact (Int.floor_le_ceil _).trans (Int.ceil_mono this)
    have h5 : ⌊c.lo j⌋ ≤ (dims j : Int) - 1 := by
      have h4 : ((⌊c.lo j⌋ : Int) : K) ≤ (((dims j : Int) - 1 : Int) : K) := by
        push_cast; exact (Int.floor_le _).trans (hb.lo j).2
      exact_mod_cast h4
    have h6 : 0 ≤ ⌊c.lo j⌋ := Int.floor_nonneg.2 h0
    constructor <;> omega
  · intro x
    rw [hmem]
    have h0 : 0 ≤ ⌊c.lo 0⌋ := Int.floor_nonneg.2 (hb.lo 0).1
    have h1 : 0 ≤ ⌊c.lo 1⌋ := Int.floor_nonneg.2 (hb.lo 1).1
    dsimp only
    constructor
    · rintro ⟨i, j, hi, hj, rfl⟩
      refine ⟨i.toNat, j.toNat, by omega, by omega, ?_⟩
      push_cast
      rw [Int.toNat_of_nonneg (by omega), Int.toNat_of_nonneg (by omega)]
    · rintro ⟨i, j, hi, hj, rfl⟩
      exact ⟨i, j, by omega, by omega, by push_cast; rfl⟩

/-- The cell of a position between the corners is in the box of cells. -/
theorem cell_in_box (dims : Fin 2 → Nat) (hd : ∀ i, 2 ≤ dims i) (c : Corners K) (p : Fin 2 → K) (hin : InGrid dims p) (j : Fin 2)
    (h1 : c.lo j ≤ p j) (h2 : p j ≤ c.hi j) (h3 : c.lo j < (dims j : K) - 1) :
    ⌊c.lo j⌋ ≤ (cellLo dims p j : Int) ∧ (cellLo dims p j : Int) < min ⌈c.hi j + 1 / 100⌉ ((dims j : Int) - 1) := by
  obtain ⟨p0, p1⟩ := hin j
  have hf0 : 0 ≤ ⌊p j⌋ := Int.floor_nonneg.2 p0
  have hc : (cellLo dims p j : Int) = min ⌊p j⌋ ((dims j : Int) - 2) := by
    unfold cellLo
    have := hd j
    omega
  have hlo1 : ⌊c.lo j⌋ ≤ ⌊p j⌋ := Int.floor_mono h1
  have hlo2 : ⌊c.lo j⌋ ≤ (dims j : Int) - 2 := by
    have h6 : ((⌊c.lo j⌋ : Int) : K) < (((dims j : Int) - 1 : Int) : K) := by
      push_cast; exact lt_of_le_of_lt (Int.floor_le _) h3
    have : ⌊c.lo j⌋ < (dims j : Int) - 1 := by exact_mod_cast h6
    omega
  have hhi : ⌊p j⌋ < ⌈c.hi j + 1 / 100⌉ := by
    have h4 : p j < c.hi j + 1 / 100 := by
      have : (0 : K) < 1 / 100 := by norm_num
      linarith
    have h5 : ((⌊p j⌋ : Int) : K) < ((⌈c.hi j + 1 / 100⌉ : Int) : K) :=
      lt_of_le_of_lt (Int.floor_le _) (lt_of_lt_of_le h4 (Int.le_ceil _))
    exact_mod_cast h5
  rw [hc]
  constructor
  · exact le_min hlo1 hlo2
  · rw [lt_min_iff]
    exact ⟨lt_of_le_of_lt (min_le_left _ _) hhi, by have := min_le_right ⌊p j⌋ ((dims j : Int) - 2); omega⟩

/-- **C43, part.**  Missing: polygons all of whose vertices lie on the upper boundary of the grid along an axis, for which
the claim is false (`C43_cover_refuted`).  Proved: if, along each axis, some vertex is found below the upper boundary,
the cell containing the index position found for a vertex is reported, for every vertex. -/
theorem C43_cover_partial (g : Gels K) (hg : KeepsSizes g) (dims : Fin 2 → Nat) (hd : ∀ i, 2 ≤ dims i)
    (hp : dims 0 * dims 1 ≤ 2147483647) (per : Fin 2 → Int) (coords : Fin 2 → Nat → K)
    (cs : List (OverlapCall K)) (o : Overlap K)
    (hrun : runOverlap g ((FindOverlap.new : Overlap K).setSrcGrid dims per coords) cs = .ok o)
    (np : Nat) (pc : Nat → K)
    (hbelow : ∀ j : Fin 2, ∃ i < np, ∃ code pos h, vertexSearch g dims per coords (fun j => pc (2 * i + j)) = .ok (code, pos, h) ∧
      pos j < (dims j : K) - 1)
    (i : Nat) (hi : i < np) (pos : Fin 2 → K) (h : List K)
    (hv : vertexSearch g dims per coords (fun j => pc (2 * i + j)) = .ok (1, pos, h)) :
    ∃ o', (o.setPolygonPoints np pc).findSrcCellIndices g = .ok o' ∧
      ((cellLo dims pos 0 * dims 1 + cellLo dims pos 1 : Nat) : Int) ∈ o'.srcCellFlatInds := by
  have hs := runOverlap_set g hg dims per coords cs _ o (ovSet_grid dims per coords) hrun
  obtain ⟨pos', hpos, c, o', hb, ho', _, hnd, hmem⟩ := find_ok g hg dims hd hp per coords o hs np (by omega) pc
  refine ⟨o', ho', ?_⟩
  rw [hmem]
  obtain ⟨code, h', hv', hin⟩ := hpos i hi
  rw [hv, Except.ok.injEq, Prod.mk.injEq, Prod.mk.injEq] at hv'
  obtain ⟨rfl, rfl, rfl⟩ := hv'
  have hin' : InGrid dims (pos' i) := by
    rcases hin with h | h
    · exact h
    · omega
  have hall := hb.all i hi
  rw [clamp_id dims _ hin'] at hall
  have hlt : ∀ j, c.lo j < (dims j : K) - 1 := by
    intro j
    obtain ⟨k, hk, code2, pos2, h2, hv2, hlt⟩ := hbelow j
    obtain ⟨code3, h3, hv3, _⟩ := hpos k hk
    rw [hv2, Except.ok.injEq, Prod.mk.injEq, Prod.mk.injEq] at hv3
    obtain ⟨_, rfl, _⟩ := hv3
    refine lt_of_le_of_lt (hb.all k hk j).1 ?_
    unfold clampTo
    rw [max_lt_iff]
    refine ⟨?_, lt_of_le_of_lt (min_le_left _ _) hlt⟩
    have : (2 : K) ≤ (dims j : K) := by exact_mod_cast hd j
    linarith
  have hcell := fun j => cell_in_box dims hd c (pos' i) hin' j (hall j).1 (hall j).2 (hlt j)
  exact ⟨_, _, hcell 0, hcell 1, by push_cast; rfl⟩

/-- On an affine grid with more than one row of cells along the second axis, the position found for a vertex in the grid is its
index position. -/
theorem vertexSearch_affine (g : Gels K) (hg : GelsContract g) (dims : Fin 2 → Nat) (hd : ∀ i, 2 ≤ dims i) (hd1 : 3 ≤ dims 1)
    (hp : dims 0 * dims 1 ≤ 2147483647) (per : Fin 2 → Int) (coords : Fin 2 → Nat → K)
    (c : Fin 2 → K) (A : Matrix (Fin 2) (Fin 2) K) (hA : A.det ≠ 0) (hgrid : AffineGrid dims c A coords)
    (t : Fin 2 → K) (ht : InGrid dims t) :
    ∃ h, vertexSearch g dims per coords (fun i => c i + ∑ j, A i j * t j) = .ok (1, t, h) := by
  have hle : ∀ i, dims i ≤ 2147483647 := by
    have h0 := hd 0; have h1 := hd 1
    intro i; fin_cases i
    · show dims 0 ≤ _; nlinarith
    · show dims 1 ≤ _; nlinarith
  have hgd : GoodDims dims := fun i => ⟨hd i, by have := hle i; omega⟩
  have hstart : InGrid dims (FindOverlap.startIndices dims : Fin 2 → K) := by
    have h0 : (2 : K) ≤ (dims 0 : K) := by exact_mod_cast hd 0
    have h1 : (3 : K) ≤ (dims 1 : K) := by exact_mod_cast hd1
    intro i
    fin_cases i
    · show (0 : K) ≤ (dims 0 : K) / _ ∧ (dims 0 : K) / (((2123353 : Nat) : K) / ((1000000 : Nat) : K)) ≤ (dims 0 : K) - 1
      constructor
      · positivity
      · rw [div_le_iff₀ (by norm_num)]
        norm_num
        linarith
    · show (0 : K) ≤ (dims 1 : K) / _ ∧ (dims 1 : K) / (((19647354 : Nat) : K) / ((10000000 : Nat) : K)) ≤ (dims 1 : K) - 1
      constructor
      · positivity
      · rw [div_le_iff₀ (by norm_num)]
        norm_num
        linarith
  obtain ⟨code, s', e1, e2, _, e3, _⟩ := C35_affine_exact g hg (by norm_num) 100 ((1 : K) / ((1000000 : Nat) : K)) dims hgd per coords c A hA
    hgrid (FindOverlap.startIndices dims) t hstart ht
  have hc := e3 (by norm_num) (by positivity)
  subst hc
  refine ⟨s'.errorHistory, ?_⟩
  unfold vertexSearch searchFrom searchLoop
  rw [show (ovFinder dims per coords : Finder K 2) = (Finder.new 100 ((1 : K) / ((1000000 : Nat) : K))).setGrid dims per coords from rfl, e1]
  simp only [bind, Except.bind, pure, Except.pure]
  rw [if_neg (by norm_num)]
  simp only [e2]

/-- **C43, part, for whole polygons.**  Missing: as for `C43_cover_partial`, grids with a single row of cells along the second
axis, and grids that are not affine.  Proved: on a grid that is an invertible affine image of its indices, for a
polygon with its vertices in the grid, along each axis not all on the upper boundary, every point of the convex hull of
the vertices (so every point of the polygon, convex or not) lies in a reported cell.  `t` holds the index positions of the
vertices, `w` the weights of the point. -/
theorem C43_cover_hull_partial (g : Gels K) (hg : GelsContract g) (dims : Fin 2 → Nat) (hd : ∀ i, 2 ≤ dims i) (hd1 : 3 ≤ dims 1)
    (hp : dims 0 * dims 1 ≤ 2147483647) (per : Fin 2 → Int) (coords : Fin 2 → Nat → K)
    (c : Fin 2 → K) (A : Matrix (Fin 2) (Fin 2) K) (hA : A.det ≠ 0) (hgrid : AffineGrid dims c A coords)
    (cs : List (OverlapCall K)) (o : Overlap K)
    (hrun : runOverlap g ((FindOverlap.new : Overlap K).setSrcGrid dims per coords) cs = .ok o)
    (np : Nat) (hnp : 1 ≤ np) (pc : Nat → K) (t : Nat → Fin 2 → K)
    (ht : ∀ i < np, InGrid dims (t i) ∧ ∀ a : Fin 2, pc (2 * i + a) = c a + ∑ j, A a j * t i j)
    (hbelow : ∀ j : Fin 2, ∃ i < np, t i j < (dims j : K) - 1) :
    ∃ o', (o.setPolygonPoints np pc).findSrcCellIndices g = .ok o' ∧
      ∀ (w : Nat → K) (x : Fin 2 → K), (∀ i < np, 0 ≤ w i) → ∑ i ∈ Finset.range np, w i = 1 →
        (∀ a : Fin 2, x a = ∑ i ∈ Finset.range np, w i * pc (2 * i + a)) →
        ∃ (i j : Nat) (u v : K), ((i * dims 1 + j : Nat) : Int) ∈ o'.srcCellFlatInds ∧ i + 1 < dims 0 ∧ j + 1 < dims 1 ∧
          (0 ≤ u ∧ u ≤ 1) ∧ (0 ≤ v ∧ v ≤ 1) ∧ ∀ a, x a = c a + (A a 0 * (i + u) + A a 1 * (j + v)) := by
  have hs := runOverlap_set g hg.sizes dims per coords cs _ o (ovSet_grid dims per coords) hrun
  obtain ⟨pos, hpos, cr, o', hb, ho', _, _, hmem⟩ := find_ok g hg.sizes dims hd hp per coords o hs np hnp pc
  have hle : ∀ i, dims i ≤ 2147483647 := by
    have h0 := hd 0; have h1 := hd 1
    intro i; fin_cases i
    · show dims 0 ≤ _; nlinarith
    · show dims 1 ≤ _; nlinarith
  have hgd : GoodDims dims := fun i => ⟨hd i, by have := hle i; omega⟩
  have hpt : ∀ i < np, pos i = t i := by
    intro i hi
    obtain ⟨h, hv⟩ := vertexSearch_affine g hg dims hd hd1 hp per coords c A hA hgrid (t i) (ht i hi).1
    obtain ⟨code, h', hv', _⟩ := hpos i hi
    rw [show (fun a : Fin 2 => pc (2 * i + a)) = fun a => c a + ∑ j, A a j * t i j from funext (ht i hi).2, hv,
      Except.ok.injEq, Prod.mk.injEq, Prod.mk.injEq] at hv'
    exact hv'.2.1.symm
  have hall : ∀ i < np, ∀ j, cr.lo j ≤ t i j ∧ t i j ≤ cr.hi j := by
    intro i hi j
    have := hb.all i hi j
    rw [hpt i hi, clamp_id dims _ (ht i hi).1] at this
    exact this
  refine ⟨o', ho', ?_⟩
  intro w x hw hsum hx
  obtain ⟨p, hpe⟩ : ∃ p : Fin 2 → K, ∀ j, p j = ∑ i ∈ Finset.range np, w i * t i j := ⟨_, fun _ => rfl⟩
  -- bounds of a weighted mean
  have mean_ge : ∀ (j : Fin 2) (m : K), (∀ i < np, m ≤ t i j) → m ≤ p j := by
    intro j m hm
    have e : m = ∑ i ∈ Finset.range np, w i * m := by rw [← Finset.sum_mul, hsum, one_mul]
    rw [e, hpe]
    exact Finset.sum_le_sum fun i hi => mul_le_mul_of_nonneg_left (hm i (Finset.mem_range.1 hi)) (hw i (Finset.mem_range.1 hi))
  have mean_le : ∀ (j : Fin 2) (m : K), (∀ i < np, t i j ≤ m) → p j ≤ m := by
    intro j m hm
    have e : m = ∑ i ∈ Finset.range np, w i * m := by rw [← Finset.sum_mul, hsum, one_mul]
    rw [e, hpe]
    exact Finset.sum_le_sum fun i hi => mul_le_mul_of_nonneg_left (hm i (Finset.mem_range.1 hi)) (hw i (Finset.mem_range.1 hi))
  have hin : InGrid dims p := fun j => ⟨mean_ge j 0 fun i hi => ((ht i hi).1 j).1, mean_le j _ fun i hi => ((ht i hi).1 j).2⟩
  have hlt : ∀ j, cr.lo j < (dims j : K) - 1 := by
    intro j
    obtain ⟨k, hk, hlt⟩ := hbelow j
    exact lt_of_le_of_lt (hall k hk j).1 hlt
  have hcell := fun j => cell_in_box dims hd cr p hin j (mean_ge j _ fun i hi => (hall i hi j).1)
    (mean_le j _ fun i hi => (hall i hi j).2) (hlt j)
  have hxp : ∀ a, x a = c a + ∑ j, A a j * p j := by
    intro a
    rw [hx]
    have : ∑ i ∈ Finset.range np, w i * pc (2 * i + a) = ∑ i ∈ Finset.range np, (w i * c a + ∑ j, A a j * (w i * t i j)) := by
      refine Finset.sum_congr rfl fun i hi => ?_
      rw [(ht i (Finset.mem_range.1 hi)).2 a, mul_add, Finset.mul_sum]
      congr 1
      exact Finset.sum_congr rfl fun j _ => by ring
    rw [this, Finset.sum_add_distrib, ← Finset.sum_mul, hsum, one_mul, Finset.sum_comm]
    congr 1
    refine Finset.sum_congr rfl fun j _ => ?_
    rw [hpe, Finset.mul_sum]
  have b0 := cellLo_bounds dims hgd p hin 0
  have b1 := cellLo_bounds dims hgd p hin 1
  refine ⟨cellLo dims p 0, cellLo dims p 1, p 0 - cellLo dims p 0, p 1 - cellLo dims p 1, ?_, by omega, by omega,
    ⟨by linarith [b0.1], by linarith [b0.2.1]⟩, ⟨by linarith [b1.1], by linarith [b1.2.1]⟩, ?_⟩
  · rw [hmem]
    exact ⟨_, _, hcell 0, hcell 1, by push_cast; rfl⟩
  · intro a
    rw [hxp, Fin.sum_univ_two]
    ring

/-- **C42** Reading the result through the C interface: the count is the length of the list of cells, and the pointer
gives that list, unless it is empty (`C43_cover_refuted` has a case), when asking for the pointer is undefined behaviour. -/
theorem C42_access (o : Overlap K) :
    o.getNumberOfSrcCellIndices = o.srcCellFlatInds.length ∧
    (0 < o.getNumberOfSrcCellIndices → o.getSrcCellIndices = .ok o.srcCellFlatInds) ∧
    (o.getNumberOfSrcCellIndices = 0 → o.getSrcCellIndices = .error .badIterator) := by
  refine ⟨rfl, ?_, ?_⟩
  · intro h
    unfold Overlap.getSrcCellIndices
    rw [if_neg]
    intro h0
    unfold Overlap.getNumberOfSrcCellIndices at h
    rw [h0] at h
    exact absurd h (by decide)
  · intro h
    unfold Overlap.getNumberOfSrcCellIndices at h
    unfold Overlap.getSrcCellIndices
    rw [if_pos (List.length_eq_zero_iff.1 (by exact_mod_cast h))]

end exact

/-- 3 x 4 grid of unit cells. -/
def unit34 : Fin 2 → Nat → ℚ := fun i k => ![((k / 4 : Nat) : ℚ), ((k % 4 : Nat) : ℚ)] i

/-- **C43 is false** without this condition: a polygon reduced to the segment from (2, 1/2) to (2, 3/2) of the upper
boundary of the unit 3 x 4 grid.  The positions of both vertices are found (code 1), and no cell is reported. -/
theorem C43_cover_refuted :
    (do let r ← vertexSearch gels2 ![3, 4] ![0, 0] unit34 ![2, 1 / 2]; return (r.1, r.2.1 0, r.2.1 1)) = .ok (1, 2, 1 / 2) ∧
    (do let r ← vertexSearch gels2 ![3, 4] ![0, 0] unit34 ![2, 3 / 2]; return (r.1, r.2.1 0, r.2.1 1)) = .ok (1, 2, 3 / 2) ∧
    (do let o ← (((FindOverlap.new : Overlap ℚ).setSrcGrid ![3, 4] ![0, 0] unit34).setPolygonPoints 2
          (fun k => [2, 1 / 2, 2, 3 / 2].getD k 0)).findSrcCellIndices gels2
        return o.srcCellFlatInds) = .ok [] := by
  refine ⟨?_, ?_, ?_⟩ <;> decide +kernel

/-- **C44 is false.**  The conservative interpolator numbers the cell `(i, j)` of a grid with `dims[1]` nodes along the
second axis `i * (dims[1] - 1) + j` (SgConserveInterp2D.h:415-436); here the cell `(1, 0)` of the 3 x 4 grid, the only one
holding the point (3/2, 1/2), gets the number 4 instead of 3, and the cell `(1, 2)` the number 6 instead of 5, which is
not the number of a cell (there are 6 cells, 0 to 5). -/
theorem C44_numbering_refuted :
    (do let o ← (((FindOverlap.new : Overlap ℚ).setSrcGrid ![3, 4] ![0, 0] unit34).setPolygonPoints 1
          (fun k => [3 / 2, 1 / 2].getD k 0)).findSrcCellIndices gels2
        return o.srcCellFlatInds) = .ok [4] ∧
    (do let o ← (((FindOverlap.new : Overlap ℚ).setSrcGrid ![3, 4] ![0, 0] unit34).setPolygonPoints 1
          (fun k => [3 / 2, 5 / 2].getD k 0)).findSrcCellIndices gels2
        return o.srcCellFlatInds) = .ok [6] := by
  constructor <;> decide +kernel

section exact
set_option linter.unusedSectionVars false
variable {K : Type} [Field K] [LinearOrder K] [IsStrictOrderedRing K] [FloorRing K] [FOps K] [FOpsLaws K]

/-- **C44, part.**  Missing: cells of other rows, numbered otherwise (`C44_numbering_refuted`).  Proved: every reported
number decodes to exactly one cell `(i, j)` of the grid as `i * dims[1] + j`, and it is the number `i * (dims[1] - 1) + j` of
this cell among the cells exactly if the cell is in the first row. -/
theorem C44_numbering_partial (g : Gels K) (hg : KeepsSizes g) (dims : Fin 2 → Nat) (hd : ∀ i, 2 ≤ dims i)
    (hp : dims 0 * dims 1 ≤ 2147483647) (per : Fin 2 → Int) (coords : Fin 2 → Nat → K)
    (cs : List (OverlapCall K)) (o : Overlap K)
    (hrun : runOverlap g ((FindOverlap.new : Overlap K).setSrcGrid dims per coords) cs = .ok o)
    (np : Nat) (hnp : 1 ≤ np) (pc : Nat → K) :
    ∃ o', (o.setPolygonPoints np pc).findSrcCellIndices g = .ok o' ∧
      ∀ x ∈ o'.srcCellFlatInds, ∃ i j : Nat, (i + 1 < dims 0 ∧ j + 1 < dims 1 ∧ x = ((i * dims 1 + j : Nat) : Int)) ∧
        (∀ i' j' : Nat, i' + 1 < dims 0 → j' + 1 < dims 1 → x = ((i' * dims 1 + j' : Nat) : Int) → i' = i ∧ j' = j) ∧
        (x = ((i * (dims 1 - 1) + j : Nat) : Int) ↔ i = 0) := by
  obtain ⟨o', ho', _, lo, hi, hb, hmem⟩ := C42_valid_box g hg dims hd hp per coords cs o hrun np hnp pc
  refine ⟨o', ho', fun x hx => ?_⟩
  obtain ⟨i, j, hi', hj', rfl⟩ := (hmem x).1 hx
  have h0 := hb 0
  have h1 := hb 1
  refine ⟨i, j, ⟨by omega, by omega, rfl⟩, ?_, ?_⟩
  · intro i2 j2 hi2 hj2 he
    have he' : i * dims 1 + j = i2 * dims 1 + j2 := by exact_mod_cast he
    have ej : j = j2 := by
      have := congrArg (· % dims 1) he'
      rwa [Nat.mul_add_mod_self_right, Nat.mul_add_mod_self_right, Nat.mod_eq_of_lt (by omega), Nat.mod_eq_of_lt (by omega)] at this
    subst ej
    have e1 : i * dims 1 = i2 * dims 1 := by omega
    exact ⟨(Nat.eq_of_mul_eq_mul_right (by omega) e1).symm, rfl⟩
  · constructor
    · intro he
      have he' : i * dims 1 + j = i * (dims 1 - 1) + j := by exact_mod_cast he
      obtain ⟨m, hm⟩ : ∃ m, dims 1 = m + 1 := ⟨dims 1 - 1, by have := hd 1; omega⟩
      rw [hm, Nat.add_sub_cancel, Nat.mul_succ] at he'
      omega
    · rintro rfl
      simp
end exact

/-! ### Examples -/

/-- A triangle over the cells (0,0), (0,1), (1,0), (1,1) of the 3 x 4 grid. -/
example : (do let o ← (((FindOverlap.new : Overlap ℚ).setSrcGrid ![3, 4] ![0, 0] unit34).setPolygonPoints 3
                (fun k => [1 / 2, 1 / 2, 3 / 2, 1 / 2, 1, 3 / 2].getD k 0)).findSrcCellIndices gels2
              return o.srcCellFlatInds) = .ok [0, 1, 4, 5] := by decide +kernel

/-- Its first vertex is found below the upper boundary (hypotheses of C43_cover_partial). -/
example : (do let r ← vertexSearch gels2 ![3, 4] ![0, 0] unit34 ![1 / 2, 1 / 2]; return (r.1, r.2.1 0, r.2.1 1)) =
    .ok (1, 1 / 2, 1 / 2) := by decide +kernel

/-- C43_cover_hull_partial: the 3 x 4 grid is affine, and the vertices of the triangle have index positions below the upper
boundary. -/
example : AffineGrid ![3, 4] ![0, 0] !![1, (0 : ℚ); 0, 1] unit34 := by
  intro m hm i
  have h0 := hm 0
  have h1 := hm 1
  simp at h0 h1
  have e : rowMajor ![3, 4] m = m 0 * 4 + m 1 := by
    rw [rowMajor_succ, rowMajor_succ]; simp [rowMajor]
  have d : (m 0 * 4 + m 1) / 4 = m 0 := by omega
  have r : (m 0 * 4 + m 1) % 4 = m 1 := by omega
  rw [e]
  unfold unit34
  rw [d, r]
  fin_cases i <;> simp [Fin.sum_univ_two]
example : InGrid ![3, 4] ![(3 / 2 : ℚ), 1 / 2] := by
  intro j; fin_cases j <;> norm_num

/-- A polygon without vertices is excluded from C42 for a reason: with a reversed index box on both axes, four cells are
reported on a grid of 4 x 4 nodes: the box iterator counts a doubly reversed box as positive (see C05). -/
example : (do let o ← (((FindOverlap.new : Overlap ℚ).setSrcGrid ![4, 4] ![0, 0] unit34).setPolygonPoints 0
                (fun _ => 0)).findSrcCellIndices gels2
              return o.srcCellFlatInds.length) = .ok 4 := by decide +kernel

end Sg.Props
