import Verif.Proof.NodeRounded
/-
Property C108: the nodal interpolator in rounded arithmetic, from the grids to the interpolated values.
-/
namespace Sg.Props
open Sg Sg.FindPoint Sg.Spec Sg.LinearSolve Sg.NodeInterp

variable {rnd : ℝ → ℝ}

/-- An interpolator with its grids set. -/
noncomputable abbrev withGrids (nitermax : Int) (tolpos : Fl rnd) (dims : Fin 2 → Nat) (per : Fin 2 → Int) (coords : Fin 2 → Nat → Fl rnd)
    (dd : Fin 2 → Nat) (dc : Fin 2 → Nat → Fl rnd) : NodeInterp (Fl rnd) :=
  (((new nitermax tolpos).setSrcGrid dims per coords).setDstGrid dd dc)

/-- Everything about the table. -/
theorem table_fl {N : Nat} (hN : KeepsInts rnd N) (h31 : 2 ^ 31 ≤ N) (g : Gels (Fl rnd)) (hg : KeepsSizes g) (nitermax : Int)
    (tolpos : Fl rnd) (dims : Fin 2 → Nat) (hd : ∀ i, 2 ≤ dims i ∧ dims i ≤ 2 ^ 30) (per : Fin 2 → Int) (coords : Fin 2 → Nat → Fl rnd)
    (dd : Fin 2 → Nat) (dc : Fin 2 → Nat → Fl rnd) :
    ∃ o, (withGrids nitermax tolpos dims per coords dd dc).computeWeights g = .ok o ∧
      GoodTable o.weights (dims 0 * dims 1) (dd 0 * dd 1) ∧
      ∀ k iw, (k, iw) ∈ o.weights → ∃ d, InGrid dims (vals d) ∧ getSrcIndicesAndWeights dims d = .ok iw ∧
        ∃ p : Fin 2 → Fl rnd, (∀ i, interp dims d ((List.range (∏ i, dims i)).map (coords i)) = .ok (p i)) ∧
          (FOps.sqrt ((List.finRange 2).foldl (fun res i => let dp := p i - dc i k; res + dp * dp) (0 : Fl rnd))).val < tolpos.val := by
  have hset := setFl_of h31 nitermax tolpos dims hd per coords dd dc
  set o0 := (((new nitermax tolpos).setSrcGrid dims per coords).setDstGrid dd dc) with ho0
  have hgd : GoodDims dims := fun i => ⟨(hd i).1, (hd i).2.trans (by norm_num)⟩
  obtain ⟨s, hs, hl⟩ := before_fl hN h31 g hg o0 dims hset o0.dstNumPoints (le_refl _)
  refine ⟨{ o0 with finder := s.finder, weights := s.weights }, ?_, ⟨hl.sorted, hl.keys, ?_⟩, ?_⟩
  · show (if o0.srcSet && o0.dstSet then _ else _) = _
    have : (o0.srcSet && o0.dstSet) = true := rfl
    rw [if_pos this, hs]
    rfl
  · intro e he q hq
    obtain ⟨d, t, hin, _, hiw, _⟩ := hl.entries e he
    have hin' : InGrid dims (vals d) := hin
    have hiw' : getSrcIndicesAndWeights dims d = .ok e.2 := hiw
    rw [getSrc_fl dims hgd d hin', Except.ok.injEq] at hiw'
    rw [← hiw'] at hq
    obtain ⟨j, -, rfl⟩ := List.mem_map.mp hq
    have := rowMajor_lt dims _ (cornerNode_lt dims hgd (vals d) hin' j)
    rw [Fin.prod_univ_two] at this
    dsimp only
    omega
  · intro k iw hk
    obtain ⟨d, t, hin, ht, hiw, err, herr, hlt⟩ := hl.entries (k, iw) hk
    have hkd : k < dd 0 * dd 1 := hl.keys _ hk
    have ht' := target_eq ((new nitermax tolpos).setSrcGrid dims per coords) dd dc k hkd
    rw [← ho0, ht, Except.ok.injEq] at ht'
    subst ht'
    refine ⟨d, hin, hiw, ?_⟩
    have hp : ∀ i, ∃ v, interp dims d ((List.range (∏ i, dims i)).map (coords i)) = .ok v := fun i =>
      ⟨_, interp_fl dims hgd d hin _ (by simp)⟩
    choose p hp using hp
    refine ⟨p, hp, ?_⟩
    have hpos : ({ o0.finder with dIndices := d, targetPoint := fun j => dc j k } : Finder (Fl rnd) 2).getPosition = .ok p :=
      forAxes_ok _ p hp
    unfold Finder.getError at herr
    rw [hpos] at herr
    simp only [bind, Except.bind, pure, Except.pure, Except.ok.injEq] at herr
    rw [← herr] at hlt
    exact hlt

/-- **C108** In any arithmetic with roundings of relative error at most `u < 1` that keeps the order and the integers up to `2^31`, for any two
grids and any solver, the weights are computed without undefined behaviour, and the table can be applied.  Each entry is close to weights that
are not negative and have the sum 1, and these give a point close to the node: `tolpos/(1-u)^4` away along each axis at most, plus the rounding error
of an interpolated coordinate, if `M` bounds the coordinates of the source grid. -/
theorem C108_table {u : ℝ} (hr : Rounds rnd u 0) (hu : u < 1) {N : Nat} (hN : KeepsInts rnd N) (h31 : 2 ^ 31 ≤ N) (g : Gels (Fl rnd)) (hg : KeepsSizes g)
    (nitermax : Int) (tolpos : Fl rnd) (dims : Fin 2 → Nat) (hd : ∀ i, 2 ≤ dims i ∧ dims i ≤ 2 ^ 30) (per : Fin 2 → Int)
    (coords : Fin 2 → Nat → Fl rnd) (M : ℝ) (hM : ∀ i, ∀ m < dims 0 * dims 1, |(coords i m).val| ≤ M)
    (dd : Fin 2 → Nat) (dc : Fin 2 → Nat → Fl rnd) :
    ∃ o, (((new nitermax tolpos).setSrcGrid dims per coords).setDstGrid dd dc).computeWeights g = .ok o ∧
      GoodTable o.weights (dims 0 * dims 1) (dd 0 * dd 1) ∧
      ∀ k iw, (k, iw) ∈ o.weights → ∃ wR : List ℝ, wR.length = iw.length ∧ (∀ w ∈ wR, 0 ≤ w ∧ w ≤ 1) ∧ wR.sum = 1 ∧
        (List.zipWith (fun e w => |e.2.val - w|) iw wR).sum ≤ (1 + u) ^ 6 - 1 ∧
        ∀ i, |(List.zipWith (fun e w => w * (coords i e.1.toNat).val) iw wR).sum - (dc i k).val| <
          tolpos.val / (1 - u) ^ 4 + ((1 + u) ^ 11 - 1) * M := by
  obtain ⟨o, ho, ht, hent⟩ := table_fl hN h31 g hg nitermax tolpos dims hd per coords dd dc
  have hgd : GoodDims dims := fun i => ⟨(hd i).1, (hd i).2.trans (by norm_num)⟩
  have hfit : ∀ i, dims i ≤ N := fun i => (hd i).2.trans (by omega)
  refine ⟨o, ho, ht, fun k iw hk => ?_⟩
  obtain ⟨d, hin, hiw, p, hp, hlt⟩ := hent k iw hk
  obtain ⟨iw', iwR, h1, h2, h3, h4⟩ := C107_weights hr hN dims hgd hfit d hin
  rw [hiw, Except.ok.injEq] at h1
  subst h1
  obtain ⟨iwR', h5, h6, h7, h8⟩ := C28_partition_of_unity dims hgd (vals d) hin
  rw [h2, Except.ok.injEq] at h5
  subst h5
  have hlen : iwR.length = iw.length := by rw [← List.length_map Prod.fst, ← h3, List.length_map]
  refine ⟨iwR.map Prod.snd, by rw [List.length_map]; exact hlen, ?_, h8, ?_, ?_⟩
  · intro w hw
    obtain ⟨e, he, rfl⟩ := List.mem_map.mp hw
    exact h7 e he
  · rw [List.zipWith_map_right]
    exact h4
  · intro i
    have hdist := distance_fl hr hu p (fun i => dc i k) tolpos.val hlt i
    have hprod : ∏ i, dims i = dims 0 * dims 1 := Fin.prod_univ_two _
    obtain ⟨v, w, hv, hw, he⟩ := C107_interp hr hN dims hgd hfit d hin ((List.range (∏ i, dims i)).map (coords i)) (by simp) M
      (fun m v hm hv => by
        rw [List.getElem?_map, Option.map_eq_some_iff] at hv
        obtain ⟨y, hy, rfl⟩ := hv
        obtain ⟨hlt, rfl⟩ := List.getElem?_eq_some_iff.mp hy
        rw [List.length_range] at hlt
        rw [List.getElem_range]
        exact hM i _ (by rw [← hprod]; exact hlt))
    rw [hp i, Except.ok.injEq] at hv
    subst hv
    obtain ⟨e1, e2⟩ := interp_entryVal dims hgd (vals d) hin (((List.range (∏ i, dims i)).map (coords i)).map Fl.val) (by simp) iwR h2
    rw [hw, Except.ok.injEq, entryVal_eq] at e1
    have e3 : (List.zipWith (fun e w => w * (coords i e.1.toNat).val) iw (iwR.map Prod.snd)).sum = w := by
      rw [e1, List.zipWith_map_right]
      congr 1
      refine List.ext_getElem (by simp [hlen]) fun j hj1 hj2 => ?_
      rw [List.getElem_zipWith, List.getElem_map]
      have hj : j < iwR.length := by simpa using hj2
      have hj' : j < iw.length := by omega
      have hfst : (iw[j]).1 = (iwR[j]).1 := by
        have := congrArg (fun l => l[j]?) h3
        simpa [List.getElem?_eq_getElem, hj, hj'] using this
      obtain ⟨p0, p1⟩ := e2 iwR[j] (List.getElem_mem hj)
      have hlt : (iwR[j]).1.toNat < ∏ i, dims i := by
        simp only [List.length_map, List.length_range] at p1
        omega
      rw [hfst]
      congr 1
      rw [List.getD_eq_getElem?_getD, List.getElem?_map, List.getElem?_map, List.getElem?_range hlt]
      rfl
    rw [e3]
    have h1u : 0 < (1 - u) ^ 4 := pow_pos (by linarith) 4
    have hdist' : |(p i).val - (dc i k).val| < tolpos.val / (1 - u) ^ 4 := by
      rw [lt_div_iff₀ h1u, mul_comm]; exact hdist
    have e4 : w - (dc i k).val = -((p i).val - w) + ((p i).val - (dc i k).val) := by ring
    rw [e4]
    refine (abs_add_le _ _).trans_lt ?_
    rw [abs_neg]
    have he' : |(p i).val - w| ≤ ((1 + u) ^ 11 - 1) * M := he
    linarith

/-- **C108** Values: with the table of any two grids, source values between `lo` and `hi` give values between them at every node of the table, up
to the rounding error; the other entries are not changed. -/
theorem C108_range {u : ℝ} (hr : Rounds rnd u 0) {N : Nat} (hN : KeepsInts rnd N) (h31 : 2 ^ 31 ≤ N) (g : Gels (Fl rnd)) (hg : KeepsSizes g)
    (nitermax : Int) (tolpos : Fl rnd) (dims : Fin 2 → Nat) (hd : ∀ i, 2 ≤ dims i ∧ dims i ≤ 2 ^ 30) (per : Fin 2 → Int)
    (coords : Fin 2 → Nat → Fl rnd) (dd : Fin 2 → Nat) (dc : Fin 2 → Nat → Fl rnd) (src dst : List (Fl rnd)) (hsrc : src.length = dims 0 * dims 1)
    (hdst : dst.length = dd 0 * dd 1) (lo hi : ℝ) (hv : ∀ v ∈ src, lo ≤ v.val ∧ v.val ≤ hi) :
    ∃ o d, (((new nitermax tolpos).setSrcGrid dims per coords).setDstGrid dd dc).computeWeights g = .ok o ∧ o.apply src dst = .ok d ∧
      d.length = dst.length ∧ (∀ k, (∀ iw, (k, iw) ∉ o.weights) → d[k]? = dst[k]?) ∧
      ∀ k iw, (k, iw) ∈ o.weights → ∃ v, d[k]? = some v ∧
        lo - ((1 + u) ^ 11 - 1) * max |lo| |hi| ≤ v.val ∧ v.val ≤ hi + ((1 + u) ^ 11 - 1) * max |lo| |hi| := by
  obtain ⟨o, ho, ht, hent⟩ := table_fl hN h31 g hg nitermax tolpos dims hd per coords dd dc
  have hgd : GoodDims dims := fun i => ⟨(hd i).1, (hd i).2.trans (by norm_num)⟩
  have hfit : ∀ i, dims i ≤ N := fun i => (hd i).2.trans (by omega)
  have hprod : ∏ i, dims i = dims 0 * dims 1 := Fin.prod_univ_two _
  obtain ⟨d', ha, hl, h3, h4⟩ := apply_ok o src dst ht.keys (by rw [hdst]; exact ht.dst) (by rw [hsrc]; exact ht.src)
  refine ⟨o, d', ho, ha, hl, fun k hk => h4 k fun e he hek => hk e.2 (by rw [← hek]; exact he), fun k iw hk => ?_⟩
  obtain ⟨d, hin, hiw, -⟩ := hent k iw hk
  refine ⟨_, h3 (k, iw) hk, ?_⟩
  obtain ⟨v, hvv, hb⟩ := C107_range hr hN dims hgd hfit d hin src (by rw [hprod]; exact hsrc) lo hi
    (fun m v _ hm => hv v (List.mem_of_getElem? hm))
  rw [interp_fl dims hgd d hin src (by rw [hprod]; exact hsrc), Except.ok.injEq] at hvv
  subst hvv
  rw [getSrc_fl dims hgd d hin, Except.ok.injEq] at hiw
  have e : entryVal src iw = dot ((List.range (2 ^ 2)).map fun j =>
      (weightFl dims d j, src.getD (rowMajor dims (cornerNode dims (vals d) j)) 0)) := by
    rw [← hiw]
    unfold entryVal dot
    rw [List.foldl_map, List.foldl_map]
    rfl
  rw [e]
  exact hb

/-- **C108** Constants are reproduced at every node of the table, up to the rounding error. -/
theorem C108_constant {u : ℝ} (hr : Rounds rnd u 0) {N : Nat} (hN : KeepsInts rnd N) (h31 : 2 ^ 31 ≤ N) (g : Gels (Fl rnd)) (hg : KeepsSizes g)
    (nitermax : Int) (tolpos : Fl rnd) (dims : Fin 2 → Nat) (hd : ∀ i, 2 ≤ dims i ∧ dims i ≤ 2 ^ 30) (per : Fin 2 → Int)
    (coords : Fin 2 → Nat → Fl rnd) (dd : Fin 2 → Nat) (dc : Fin 2 → Nat → Fl rnd) (c : Fl rnd) (dst : List (Fl rnd))
    (hdst : dst.length = dd 0 * dd 1) :
    ∃ o d, (((new nitermax tolpos).setSrcGrid dims per coords).setDstGrid dd dc).computeWeights g = .ok o ∧
      o.apply (List.replicate (dims 0 * dims 1) c) dst = .ok d ∧
      ∀ k iw, (k, iw) ∈ o.weights → ∃ v, d[k]? = some v ∧ |v.val - c.val| ≤ ((1 + u) ^ 11 - 1) * |c.val| := by
  obtain ⟨o, d, h1, h2, -, -, h3⟩ := C108_range hr hN h31 g hg nitermax tolpos dims hd per coords dd dc (List.replicate (dims 0 * dims 1) c) dst
    (List.length_replicate ..) hdst c.val c.val (fun v hv => by rw [List.eq_of_mem_replicate hv]; exact ⟨le_rfl, le_rfl⟩)
  refine ⟨o, d, h1, h2, fun k iw hk => ?_⟩
  obtain ⟨v, hv, a, b⟩ := h3 k iw hk
  rw [max_self] at a b
  exact ⟨v, hv, abs_le.mpr ⟨by linarith, by linarith⟩⟩

/-! ### A case: binary digits -/

/-- A solver that asks for a step back by one in each direction. -/
def stepBack : Gels (Fl rnd) := fun r => { a := r.a, b := r.b.map fun _ => ⟨-1⟩, info := 0 }

/-- The nodes of the unit square. -/
def squareNodes (i : Fin 2) (m : Nat) : Fl rnd := if (if i = 0 then m / 2 else m % 2) = 0 then ⟨0⟩ else ⟨1⟩

theorem squareNodes_bounds {N : Nat} (hN : KeepsInts rnd N) (tolpos : Fl rnd) (nitermax : Int) :
    (((Finder.new nitermax tolpos).setGrid ![2, 2] ![0, 0] squareNodes).bounds : Option ((Fin 2 → Fl rnd) × (Fin 2 → Fl rnd))) =
      some (fun _ => ⟨0⟩, fun _ => ⟨1⟩) := by
  have hbig : (0 : ℝ) ≤ (FOps.big : Fl rnd).val :=
    hN.nonneg (sub_nonneg.mpr (pow_le_pow_right₀ (by norm_num) (by norm_num)))
  have h1 : ¬ (FOps.big : Fl rnd) < ⟨0⟩ := not_lt.mpr hbig
  have h2 : ¬ (⟨0⟩ : Fl rnd) < -FOps.big := by
    show ¬ (0 : ℝ) < -(FOps.big : Fl rnd).val
    linarith
  have a1 : ¬ (⟨0⟩ : Fl rnd) < ⟨0⟩ := lt_irrefl (0 : ℝ)
  have a2 : (⟨0⟩ : Fl rnd) < ⟨1⟩ := zero_lt_one (α := ℝ)
  have a3 : ¬ (⟨1⟩ : Fl rnd) < ⟨0⟩ := not_lt.mpr (zero_le_one (α := ℝ))
  have a4 : ¬ (⟨1⟩ : Fl rnd) < ⟨1⟩ := lt_irrefl (1 : ℝ)
  have e4 : List.range (∏ i : Fin 2, (![2, 2] : Fin 2 → Nat) i) = [0, 1, 2, 3] := rfl
  unfold Finder.setGrid Finder.new
  dsimp only [Option.getD]
  rw [e4]
  congr 2 <;> funext i <;> fin_cases i <;> simp [squareNodes, h1, h2, a1, a2, a3, a4]

/-- On the unit square the search for the first node from the middle stops with code 1 after one step. -/
theorem squareStep : ∃ s', (Finder.reset (((new 2 (⟨1⟩ : Fl (nearest 53))).setSrcGrid ![2, 2] ![0, 0] squareNodes).setDstGrid ![1, 1] (fun _ _ => ⟨0⟩)).finder
    (startIndices (((new 2 (⟨1⟩ : Fl (nearest 53))).setSrcGrid ![2, 2] ![0, 0] squareNodes).setDstGrid ![1, 1] (fun _ _ => ⟨0⟩)).srcCellDims)
    (fun _ => ⟨0⟩)).next stepBack = .ok (1, s') := by
  have hN := nearest_ints 53 (by norm_num)
  have h31 : 2 ^ 31 ≤ 2 ^ 53 - 1 := by norm_num
  have hg : KeepsSizes (stepBack : Gels (Fl (nearest 53))) := fun r => ⟨rfl, by simp [stepBack]⟩
  have hd : ∀ i : Fin 2, 2 ≤ (![2, 2] : Fin 2 → Nat) i ∧ (![2, 2] : Fin 2 → Nat) i ≤ 2 ^ 30 := by intro i; fin_cases i <;> simp
  have hgd : GoodDims ![2, 2] := fun i => ⟨(hd i).1, (hd i).2.trans (by norm_num)⟩
  have hset := setFl_of h31 2 (⟨1⟩ : Fl (nearest 53)) ![2, 2] hd ![0, 0] squareNodes ![1, 1] (fun _ _ => ⟨0⟩)
  set o0 := (((new 2 (⟨1⟩ : Fl (nearest 53))).setSrcGrid ![2, 2] ![0, 0] squareNodes).setDstGrid ![1, 1] (fun _ _ => ⟨0⟩)) with ho0
  set f0 : Finder (Fl (nearest 53)) 2 := o0.finder.reset (startIndices o0.srcCellDims) (fun _ => ⟨0⟩) with hf0
  have hb : f0.bounds = some (fun _ => ⟨0⟩, fun _ => ⟨1⟩) := squareNodes_bounds hN _ _
  have hgrid : GridFl (2 ^ 53 - 1) f0 := ⟨ready_reset _ _ _ hset.grid.ready, hset.grid.dims, hset.grid.fit, hset.grid.coords⟩
  have hstart : InGrid f0.dims (vals f0.dIndices) := startIndices_fl hN h31 ![2, 2] hd
  obtain ⟨⟨b, hb'⟩, slvr, hs, hok⟩ := hgrid.ready
  obtain ⟨jr, hj⟩ := jacobian_fl hN f0 hgrid hstart
  have hin : f0.inside (fun _ => ⟨0⟩, fun _ => ⟨1⟩) = true := by
    have eps : (0 : ℝ) ≤ (FOps.eps100 : Fl (nearest 53)).val := hN.nonneg (by norm_num)
    unfold Finder.inside
    rw [List.all_eq_true]
    intro i _
    rw [Bool.and_eq_true, decide_eq_true_iff, decide_eq_true_iff]
    constructor
    · show nearest 53 (0 - (FOps.eps100 : Fl (nearest 53)).val) ≤ 0
      calc nearest 53 (0 - (FOps.eps100 : Fl (nearest 53)).val) ≤ nearest 53 0 := hN.mono (by linarith)
        _ = 0 := hN.zero
    · exact hN.nonneg (add_nonneg zero_le_one eps)
  have hsol : ∀ i : Fin 2, solution stepBack jr.1 jr.2 i = (⟨-1⟩ : Fl (nearest 53)) := by
    intro i
    fin_cases i <;> rfl
  have hmoved : f0.moved stepBack jr.1 jr.2 = fun _ => ⟨0⟩ := by
    funext i
    unfold Finder.moved
    rw [hsol]
    have hneg : f0.dIndices i + ⟨-1⟩ < (0 : Fl (nearest 53)) ∨ (f0.dIndices i + ⟨-1⟩).val = 0 := by
      have h1 : (f0.dIndices i).val ≤ ((![2, 2] : Fin 2 → Nat) i : ℝ) - 1 := (hstart i).2
      have h2 : (f0.dIndices i + ⟨-1⟩).val ≤ 0 := by
        rw [Fl.add_val, ← hN.zero]
        refine hN.mono ?_
        have : ((![2, 2] : Fin 2 → Nat) i : ℝ) = 2 := by fin_cases i <;> norm_num
        show (f0.dIndices i).val + -1 ≤ 0
        linarith
      rcases h2.lt_or_eq with h | h
      · exact .inl h
      · exact .inr h
    have hper : f0.indexPeriodicity i = 0 := by fin_cases i <;> rfl
    unfold truncateIndex
    dsimp only
    rw [hper]
    simp only [ne_eq, not_true_eq_false, if_false]
    have hm : ¬ (((f0.dims i - 1 : Nat) : Fl (nearest 53))) < 0 := not_lt.mpr (hN.nonneg (Nat.cast_nonneg _))
    rcases hneg with h | h
    · rw [if_pos h, if_neg hm]; rfl
    · have : f0.dIndices i + ⟨-1⟩ = (0 : Fl (nearest 53)) := Fl.ext h
      rw [this]
      have a : ¬ (0 : Fl (nearest 53)) < 0 := lt_irrefl (0 : ℝ)
      rw [if_neg a, if_neg hm]; rfl
  have hzero : InGrid f0.dims (vals (fun _ => ⟨0⟩ : Fin 2 → Fl (nearest 53))) := by
    intro i
    have h2 : (2 : ℝ) ≤ (f0.dims i : ℝ) := by exact_mod_cast (hgrid.dims i).1
    exact ⟨le_rfl, by show (0 : ℝ) ≤ _; linarith⟩
  have hpos : ∀ i, interp f0.dims (fun _ => ⟨0⟩) (f0.coords i) = .ok (⟨0⟩ : Fl (nearest 53)) := by
    intro i
    have hc : f0.coords i = (List.range 4).map (squareNodes i) := rfl
    rw [interp_fl f0.dims hgd _ hzero _ (hgrid.coords i)]
    congr 1
    have hv : vals (fun _ => ⟨0⟩ : Fin 2 → Fl (nearest 53)) = fun _ => 0 := rfl
    have hlo : ∀ a, cellLo f0.dims (vals (fun _ => ⟨0⟩ : Fin 2 → Fl (nearest 53))) a = 0 := by
      intro a
      rw [hv]
      unfold cellLo
      simp
    have m1 : nearest 53 (-1) = -1 := by
      have := nearest_exact (p := 53) (m := -1) (k := 0) (by norm_num)
      simpa using this
    have hs1 : ∀ a, sideFl f0.dims (fun _ => ⟨0⟩ : Fin 2 → Fl (nearest 53)) a 1 = ⟨0⟩ := by
      intro a
      unfold sideFl axisWeight
      rw [hlo]
      dsimp only
      have e1 : ((((0 : Nat) : Int) + ((1 : Nat) : Int) : Int) : Fl (nearest 53)).val = 1 := by
        rw [Fl.intCast_val]
        have := hN.int 1 (by norm_num)
        simpa using this
      have hle : ¬ ((((0 : Nat) : Int) + ((1 : Nat) : Int) : Int) : Fl (nearest 53)) ≤ ⟨0⟩ := by
        show ¬ ((((0 : Nat) : Int) + ((1 : Nat) : Int) : Int) : Fl (nearest 53)).val ≤ 0
        rw [e1]; norm_num
      rw [if_neg hle]
      apply Fl.ext
      rw [Fl.add_val, Fl.sub_val, e1]
      show nearest 53 (nearest 53 (0 - 1) + 1) = 0
      rw [zero_sub, m1, neg_add_cancel, hN.zero]
    have mz : ∀ x : Fl (nearest 53), x * ⟨0⟩ = ⟨0⟩ := fun x => Fl.ext (by rw [Fl.mul_val, mul_zero]; exact hN.zero)
    have zm : ∀ x : Fl (nearest 53), (⟨0⟩ : Fl (nearest 53)) * x = ⟨0⟩ := fun x => Fl.ext (by rw [Fl.mul_val, zero_mul]; exact hN.zero)
    have zz : (0 : Fl (nearest 53)) + ⟨0⟩ = ⟨0⟩ := Fl.ext (by rw [Fl.add_val, Fl.zero_val, add_zero]; exact hN.zero)
    have zz' : (⟨0⟩ : Fl (nearest 53)) + ⟨0⟩ = ⟨0⟩ := zz
    have e4 : List.range (2 ^ 2) = [0, 1, 2, 3] := rfl
    have b1 : bit 2 1 1 = 1 := rfl
    have b2 : bit 2 2 0 = 1 := rfl
    have b3 : bit 2 3 0 = 1 := rfl
    have e2 : List.finRange 2 = [0, 1] := rfl
    have w1 : weightFl f0.dims (fun _ => ⟨0⟩ : Fin 2 → Fl (nearest 53)) 1 = ⟨0⟩ := by
      unfold weightFl; rw [e2]; simp only [List.foldl_cons, List.foldl_nil, b1, hs1, mz]
    have w2 : weightFl f0.dims (fun _ => ⟨0⟩ : Fin 2 → Fl (nearest 53)) 2 = ⟨0⟩ := by
      unfold weightFl; rw [e2]; simp only [List.foldl_cons, List.foldl_nil, b2, hs1, mz, zm]
    have w3 : weightFl f0.dims (fun _ => ⟨0⟩ : Fin 2 → Fl (nearest 53)) 3 = ⟨0⟩ := by
      unfold weightFl; rw [e2]; simp only [List.foldl_cons, List.foldl_nil, b3, hs1, mz, zm]
    have c0 : (f0.coords i).getD (rowMajor f0.dims (cornerNode f0.dims (vals (fun _ => ⟨0⟩ : Fin 2 → Fl (nearest 53))) 0)) 0 = ⟨0⟩ := by
      have hn0 : cornerNode f0.dims (vals (fun _ => ⟨0⟩ : Fin 2 → Fl (nearest 53))) 0 = fun _ => 0 := by
        funext a
        unfold cornerNode
        rw [hlo]
        fin_cases a <;> rfl
      have hr0 : rowMajor f0.dims (fun _ => 0) = 0 := by simp [rowMajor]
      rw [hn0, hr0, hc]
      fin_cases i <;> rfl
    unfold dot
    rw [e4]
    simp only [List.map_cons, List.map_nil, List.foldl_cons, List.foldl_nil, w1, w2, w3, c0, mz, zm, zz, zz']
  have hnext := next_eq stepBack hg (by norm_num) f0 _ hb slvr hs hok
  rw [hin, if_neg (by simp), hj] at hnext
  simp only [bind, Except.bind] at hnext
  rw [hmoved] at hnext
  have herr : Finder.getError { f0 with
      slvr := some (afterSolve stepBack 2 slvr (flatten2 jr.1) (flatten1 jr.2)), dIndices := fun _ => ⟨0⟩ } = .ok ⟨0⟩ := by
    have hp : Finder.getPosition { f0 with
        slvr := some (afterSolve stepBack 2 slvr (flatten2 jr.1) (flatten1 jr.2)), dIndices := fun _ => ⟨0⟩ } = .ok fun _ => ⟨0⟩ :=
      forAxes_ok _ _ hpos
    unfold Finder.getError
    rw [hp]
    simp only [bind, Except.bind, pure, Except.pure]
    congr 1
    have e2 : List.finRange 2 = [0, 1] := rfl
    rw [e2]
    apply Fl.ext
    show nearest 53 (Real.sqrt (nearest 53 (nearest 53 (0 + nearest 53 (nearest 53 (0 - 0) * nearest 53 (0 - 0))) +
      nearest 53 (nearest 53 (0 - 0) * nearest 53 (0 - 0))))) = 0
    have hz : nearest 53 0 = 0 := nearest_zero 53
    simp [hz]
  rw [herr] at hnext
  dsimp only at hnext
  have hfin : ∃ s', f0.next stepBack = .ok (1, s') := by
    unfold Finder.finishStep at hnext
    dsimp only at hnext
    rw [if_neg (by
      rintro ⟨-, h3, -⟩
      have : f0.errorHistory = [] := rfl
      rw [this] at h3
      simp at h3)] at hnext
    have hi : ¬ (f0.iter + 1 ≥ f0.nitermax) := by
      show ¬ ((0 : Int) + 1 ≥ 2)
      norm_num
    rw [if_neg hi] at hnext
    have ht : (⟨0⟩ : Fl (nearest 53)) < f0.tolpos := zero_lt_one (α := ℝ)
    rw [if_pos ht] at hnext
    exact ⟨_, hnext⟩
  exact hfin

/-- The table of the unit square as source, and its first node as destination, is not empty: the hypotheses of the theorems above are met with
53 binary digits, and the table they are about has an entry. -/
theorem squareTable : ∃ o iw, (((new 2 (⟨1⟩ : Fl (nearest 53))).setSrcGrid ![2, 2] ![0, 0] squareNodes).setDstGrid ![1, 1] (fun _ _ => ⟨0⟩)).computeWeights
    stepBack = .ok o ∧ (0, iw) ∈ o.weights := by
  have hN := nearest_ints 53 (by norm_num)
  have h31 : 2 ^ 31 ≤ 2 ^ 53 - 1 := by norm_num
  have hg : KeepsSizes (stepBack : Gels (Fl (nearest 53))) := fun r => ⟨rfl, by simp [stepBack]⟩
  have hd : ∀ i : Fin 2, 2 ≤ (![2, 2] : Fin 2 → Nat) i ∧ (![2, 2] : Fin 2 → Nat) i ≤ 2 ^ 30 := by intro i; fin_cases i <;> simp
  have hgd : GoodDims ![2, 2] := fun i => ⟨(hd i).1, (hd i).2.trans (by norm_num)⟩
  have hset := setFl_of h31 2 (⟨1⟩ : Fl (nearest 53)) ![2, 2] hd ![0, 0] squareNodes ![1, 1] (fun _ _ => ⟨0⟩)
  set o0 := (((new 2 (⟨1⟩ : Fl (nearest 53))).setSrcGrid ![2, 2] ![0, 0] squareNodes).setDstGrid ![1, 1] (fun _ _ => ⟨0⟩)) with ho0
  set f0 : Finder (Fl (nearest 53)) 2 := o0.finder.reset (startIndices o0.srcCellDims) (fun _ => ⟨0⟩) with hf0
  have hgrid : GridFl (2 ^ 53 - 1) f0 := ⟨ready_reset _ _ _ hset.grid.ready, hset.grid.dims, hset.grid.fit, hset.grid.coords⟩
  have hstart : InGrid f0.dims (vals f0.dIndices) := startIndices_fl hN h31 ![2, 2] hd
  obtain ⟨s', hs'⟩ := squareStep
  have hfind : findTarget stepBack o0.finder (fun _ => ⟨0⟩) (startIndices o0.srcCellDims) = .ok (0, s') := by
    unfold findTarget
    have hfu : o0.finder.fuelOf = 2 := rfl
    rw [hfu]
    have : searchLoop stepBack 2 f0 = .ok (1, s') := by
      unfold searchLoop
      rw [hs']
      simp [bind, Except.bind, pure, Except.pure]
    rw [this]
    rfl
  have hq := findTarget_fl hN stepBack hg o0.finder hset.grid (fun _ => ⟨0⟩) (startIndices o0.srcCellDims) hstart
  obtain ⟨c, f', h1, -, q, -, hin', -⟩ := hq
  rw [hfind, Except.ok.injEq, Prod.mk.injEq] at h1
  obtain ⟨rfl, rfl⟩ := h1
  have htgt : o0.target 0 = .ok fun _ => ⟨0⟩ :=
    target_eq ((new 2 (⟨1⟩ : Fl (nearest 53))).setSrcGrid ![2, 2] ![0, 0] squareNodes) ![1, 1] (fun _ _ => ⟨0⟩) 0 (by norm_num)
  have hsrc := getSrc_fl s'.dims (by rw [q.dims]; exact hset.grid.dims) s'.dIndices (by rw [q.dims]; exact hin')
  have hnode : ∃ l iw, o0.before stepBack 1 = .ok l ∧ (0, iw) ∈ l.weights := by
    have h0 := before_succ stepBack o0 0 _ rfl
    unfold NodeInterp.node at h0
    rw [htgt] at h0
    simp only [bind, Except.bind] at h0
    rw [hfind] at h0
    dsimp only at h0
    rw [if_pos rfl, hsrc] at h0
    rw [h0]
    exact ⟨_, _, rfl, List.mem_singleton.mpr rfl⟩
  obtain ⟨l, iw, hl, hm⟩ := hnode
  refine ⟨{ o0 with finder := l.finder, weights := l.weights }, iw, ?_, hm⟩
  show (if o0.srcSet && o0.dstSet then _ else _) = _
  have : (o0.srcSet && o0.dstSet) = true := rfl
  have hn1 : o0.dstNumPoints = 1 := rfl
  rw [if_pos this, hn1, hl]
  rfl

end Sg.Props
