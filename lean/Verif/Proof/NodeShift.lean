import Verif.Proof.NodeInterp
/-
Searches on a grid that is moved without turning, together with the target.
-/
namespace Sg.NodeInterp
open Sg.FindPoint Sg.LinearSolve Sg.Spec Sg.Props

set_option linter.unusedSectionVars false
variable {K : Type} [Field K] [LinearOrder K] [IsStrictOrderedRing K] [FloorRing K] [FOps K] [FOpsLaws K] {n : Nat}

/-- A finder with grid, bounds and target moved by `v`. -/
def shiftF (v : Fin n → K) (s : Finder K n) : Finder K n :=
  { s with
    coords := fun i => (s.coords i).map (· + v i)
    bounds := s.bounds.map fun b => (fun i => b.1 i + v i, fun i => b.2 i + v i)
    targetPoint := fun i => s.targetPoint i + v i }

/-- Weights sum to 1, so interpolation of moved values gives the moved value. -/
theorem interp_shift (dims : Fin n → Nat) (hd : GoodDims dims) (d : Fin n → K) (h : InGrid dims d) (l : List K) (hl : l.length = ∏ i, dims i) (c : K) :
    ∃ x, interp dims d l = .ok x ∧ interp dims d (l.map (· + c)) = .ok (x + c) := by
  obtain ⟨iw, hiw, _, _, hsum⟩ := C28_partition_of_unity dims hd d h
  obtain ⟨e1, hb⟩ := interp_entryVal dims hd d h l hl iw hiw
  obtain ⟨e2, -⟩ := interp_entryVal dims hd d h (l.map (· + c)) (by rw [List.length_map, hl]) iw hiw
  refine ⟨_, e1, ?_⟩
  rw [e2]
  congr 1
  rw [entryVal_eq, entryVal_eq]
  have : (iw.map fun e => e.2 * (l.map (· + c)).getD e.1.toNat 0) = iw.map fun e => e.2 * l.getD e.1.toNat 0 + e.2 * c := by
    refine List.map_congr_left fun e he => ?_
    obtain ⟨h0, h1⟩ := hb e he
    have hlt : e.1.toNat < l.length := by omega
    simp only [List.getD_eq_getElem?_getD, List.getElem?_map, List.getElem?_eq_getElem hlt, Option.map_some, Option.getD_some]
    ring
  rw [this, List.sum_map_add, List.sum_map_mul_right, hsum, one_mul]

theorem forAxes_congr {α : Type} {f f' : Fin n → Cxx α} (h : ∀ i, f i = f' i) : forAxes f = forAxes f' := by
  rw [funext h]

theorem jacobian_shift (v : Fin n → K) (s : Finder K n) (hs : GoodDims s.dims) (hc : ∀ i, (s.coords i).length = ∏ k, s.dims k) (hi : InGrid s.dims s.dIndices) :
    (shiftF v s).computeJacobianAndRHS = s.computeJacobianAndRHS := by
  unfold Finder.computeJacobianAndRHS
  have e1 : (forAxes fun i => do
      let pos ← interp (shiftF v s).dims (shiftF v s).dIndices ((shiftF v s).coords i)
      return (shiftF v s).targetPoint i - pos : Cxx (Fin n → K)) = forAxes fun i => do
      let pos ← interp s.dims s.dIndices (s.coords i)
      return s.targetPoint i - pos := by
    refine forAxes_congr fun i => ?_
    obtain ⟨x, h1, h2⟩ := interp_shift s.dims hs s.dIndices hi (s.coords i) (hc i) (v i)
    simp only [shiftF]
    rw [h1, h2]
    simp only [bind, Except.bind, pure, Except.pure, add_sub_add_right_eq_sub]
  have e2 : (forAxes fun i => forAxes fun j => do
      let hi := indsHi (shiftF v s).dims (shiftF v s).dIndices j
      let lo := indsLo (shiftF v s).dIndices j
      let xHi ← interp (shiftF v s).dims hi ((shiftF v s).coords i)
      let xLo ← interp (shiftF v s).dims lo ((shiftF v s).coords i)
      return (xHi - xLo) / (hi j - lo j) : Cxx (Fin n → Fin n → K)) = forAxes fun i => forAxes fun j => do
      let hi := indsHi s.dims s.dIndices j
      let lo := indsLo s.dIndices j
      let xHi ← interp s.dims hi (s.coords i)
      let xLo ← interp s.dims lo (s.coords i)
      return (xHi - xLo) / (hi j - lo j) := by
    refine forAxes_congr fun i => forAxes_congr fun j => ?_
    obtain ⟨x, h1, h2⟩ := interp_shift s.dims hs _ (indsHi_inGrid s.dims hs s.dIndices hi j) (s.coords i) (hc i) (v i)
    obtain ⟨y, h3, h4⟩ := interp_shift s.dims hs _ (indsLo_inGrid s.dims s.dIndices hi j) (s.coords i) (hc i) (v i)
    simp only [shiftF]
    rw [h1, h2, h3, h4]
    simp only [bind, Except.bind, pure, Except.pure, add_sub_add_right_eq_sub]
  rw [e1, e2]

theorem getPosition_shift (v : Fin n → K) (s : Finder K n) (hs : GoodDims s.dims) (hc : ∀ i, (s.coords i).length = ∏ k, s.dims k) (hi : InGrid s.dims s.dIndices) :
    ∃ p, s.getPosition = .ok p ∧ (shiftF v s).getPosition = .ok fun i => p i + v i := by
  have key := fun i => interp_shift s.dims hs s.dIndices hi (s.coords i) (hc i) (v i)
  choose x h1 h2 using key
  exact ⟨x, forAxes_ok _ _ h1, forAxes_ok _ _ h2⟩

theorem getError_shift (v : Fin n → K) (s : Finder K n) (hs : GoodDims s.dims) (hc : ∀ i, (s.coords i).length = ∏ k, s.dims k) (hi : InGrid s.dims s.dIndices) :
    (shiftF v s).getError = s.getError := by
  obtain ⟨p, h1, h2⟩ := getPosition_shift v s hs hc hi
  unfold Finder.getError
  rw [h1, h2]
  simp only [bind, Except.bind, pure, Except.pure, shiftF, add_sub_add_right_eq_sub]

theorem inside_shift (v : Fin n → K) (s : Finder K n) (b : (Fin n → K) × (Fin n → K)) :
    (shiftF v s).inside (fun i => b.1 i + v i, fun i => b.2 i + v i) = s.inside b := by
  unfold Finder.inside
  congr 1
  funext i
  simp only [shiftF]
  congr 1
  · exact decide_eq_decide.mpr (by rw [show b.1 i + v i - FOps.eps100 = b.1 i - FOps.eps100 + v i by ring]; exact add_le_add_iff_right _)
  · exact decide_eq_decide.mpr (by rw [show b.2 i + v i + FOps.eps100 = b.2 i + FOps.eps100 + v i by ring]; exact add_le_add_iff_right _)

theorem finishStep_shift (v : Fin n → K) (s : Finder K n) (e : K) :
    (shiftF v s).finishStep e = ((s.finishStep e).1, shiftF v (s.finishStep e).2) := by
  unfold Finder.finishStep shiftF
  dsimp only
  by_cases h1 : s.oldError + FOps.eps100 < e ∧ 3 ≤ (s.errorHistory ++ [e]).length ∧
      (s.errorHistory ++ [e]).getD ((s.errorHistory ++ [e]).length - 3) 0 + FOps.eps100 < e
  · simp only [if_pos h1]
  · by_cases h2 : s.iter + 1 ≥ s.nitermax
    · simp only [if_neg h1, if_pos h2]
    · by_cases h3 : e < s.tolpos
      · simp only [if_neg h1, if_neg h2, if_pos h3]
      · simp only [if_neg h1, if_neg h2, if_neg h3]

/-- One step of the search on the moved grid is the moved step. -/
theorem next_shift (g : Gels K) (hg : KeepsSizes g) (hn : 1 ≤ n) (v : Fin n → K) (s : Finder K n) (h : Good s) (hi : InGrid s.dims s.dIndices) {c : Int} {s' : Finder K n}
    (e : s.next g = .ok (c, s')) : (shiftF v s).next g = .ok (c, shiftF v s') := by
  obtain ⟨⟨b, hb⟩, slvr, hs, hok⟩ := h.ready
  rw [next_eq g hg hn s b hb slvr hs hok] at e
  rw [next_eq g hg hn (shiftF v s) (fun i => b.1 i + v i, fun i => b.2 i + v i) (by simp only [shiftF, hb, Option.map_some]) slvr hs hok, inside_shift, jacobian_shift v s h.dims h.coords hi]
  split_ifs at e ⊢
  · simp only [Except.ok.injEq, Prod.mk.injEq] at e ⊢
    exact ⟨e.1, by rw [← e.2]⟩
  · obtain ⟨jr, h1, e⟩ := bind_ok_inv e
    obtain ⟨er, h2, e⟩ := bind_ok_inv e
    rw [h1]
    simp only [bind, Except.bind]
    have hin : InGrid s.dims (s.moved g jr.1 jr.2) := fun i => truncate_inGrid _ _ (h.dims i).1 _
    have := getError_shift v { s with slvr := some (afterSolve g n slvr (flatten2 jr.1) (flatten1 jr.2)), dIndices := s.moved g jr.1 jr.2 } h.dims h.coords hin
    have he : (shiftF v { s with slvr := some (afterSolve g n slvr (flatten2 jr.1) (flatten1 jr.2)), dIndices := s.moved g jr.1 jr.2 }) =
        { shiftF v s with slvr := some (afterSolve g n slvr (flatten2 jr.1) (flatten1 jr.2)), dIndices := (shiftF v s).moved g jr.1 jr.2 } := rfl
    rw [← he, this, h2]
    simp only
    rw [finishStep_shift]
    simp only [Except.ok.injEq] at e ⊢
    rw [e]

theorem loop_shift (g : Gels K) (hg : KeepsSizes g) (hn : 1 ≤ n) (v : Fin n → K) : ∀ (k : Nat) (s : Finder K n), Good s → InGrid s.dims s.dIndices →
    ∀ {c : Int} {s' : Finder K n}, searchLoop g k s = .ok (c, s') → searchLoop g k (shiftF v s) = .ok (c, shiftF v s')
  | 0, s, _, _, c, s', e => by
    simp only [searchLoop, Except.ok.injEq, Prod.mk.injEq] at e ⊢
    exact ⟨e.1, by rw [e.2]⟩
  | k + 1, s, h, hi, c, s', e => by
    obtain ⟨c1, s1, h1, hs1, hpos⟩ := good_next g hg hn s h
    have h2 := next_shift g hg hn v s h hi h1
    unfold searchLoop at e ⊢
    rw [h1] at e
    rw [h2]
    simp only [bind, Except.bind, pure, Except.pure] at e ⊢
    split_ifs at e ⊢ with hz
    · have hi1 : InGrid s1.dims s1.dIndices := by
        rcases hpos with hp | hp
        · exact hp
        · omega
      exact loop_shift g hg hn v k s1 hs1 hi1 e
    · simp only [Except.ok.injEq, Prod.mk.injEq] at e ⊢
      exact ⟨e.1, by rw [e.2]⟩

/-- The moved finder, with any target. -/
def Moved (v : Fin n → K) (f f' : Finder K n) : Prop := ∃ t, f' = { shiftF v f with targetPoint := t }

theorem moved_shift (v : Fin n → K) (f : Finder K n) : Moved v f (shiftF v f) := ⟨_, rfl⟩

theorem findTarget_shift (g : Gels K) (hg : KeepsSizes g) (v : Fin 2 → K) (f f' : Finder K 2) (hf : GridOK f) (hm : Moved v f f') (t d : Fin 2 → K) (hd : InGrid f.dims d)
    {c : Int} {r : Finder K 2} (e : findTarget g f t d = .ok (c, r)) : findTarget g f' (fun i => t i + v i) d = .ok (c, shiftF v r) := by
  obtain ⟨tp, rfl⟩ := hm
  unfold findTarget at e ⊢
  obtain ⟨⟨c1, s1⟩, h1, e⟩ := bind_ok_inv e
  have h2 := loop_shift g hg (by norm_num) v f.fuelOf (f.reset d t)
    ⟨ready_reset f d t hf.ready, hf.dims, hf.coords, okPos_of_inGrid f.dims hf.dims d hd⟩ hd h1
  have h3 : searchLoop g (({ shiftF v f with targetPoint := tp } : Finder K 2)).fuelOf ((({ shiftF v f with targetPoint := tp } : Finder K 2)).reset d fun i => t i + v i) =
      .ok (c1, shiftF v s1) := h2
  rw [h3]
  simp only [bind, Except.bind, pure, Except.pure, Except.ok.injEq, Prod.mk.injEq] at e ⊢
  exact ⟨e.1, by rw [e.2]⟩

theorem retry_shift (g : Gels K) (hg : KeepsSizes g) (dims : Fin 2 → Nat) (hd : ∀ i, 2 ≤ dims i ∧ dims i ≤ 2 ^ 30) (v t : Fin 2 → K) :
    ∀ (fuel k : Nat) (f : Finder K 2) (d : Fin 2 → K), fuel + k = 9 → GridOK f → f.dims = dims → ∀ {c : Int} {r : Finder K 2} {d' : Fin 2 → K},
      retry g (fun j => dims j - 1) t fuel ⟨k, 9, [3, 1]⟩ f d = .ok (c, r, d') →
      retry g (fun j => dims j - 1) (fun i => t i + v i) fuel ⟨k, 9, [3, 1]⟩ (shiftF v f) d = .ok (c, shiftF v r, d')
  | 0, k, f, d, _, _, _, c, r, d', e => by
    simp only [retry, Except.ok.injEq, Prod.mk.injEq] at e ⊢
    exact ⟨e.1, by rw [e.2.1], e.2.2⟩
  | fuel + 1, k, f, d, hk, hf, hfd, c, r, d', e => by
    obtain ⟨a, b, hs, ha, hb⟩ := sides_nine k (by omega)
    obtain ⟨d1, hd1, hin⟩ := sideIndices_ok (K := K) dims hd a b ha hb
    unfold retry at e ⊢
    rw [hs] at e ⊢
    simp only [bind, Except.bind] at e ⊢
    rw [hd1] at e ⊢
    dsimp only at e ⊢
    obtain ⟨c1, f1, h1, r1, q1, t1, i1, _⟩ := findTarget_good g hg f hf t d1 (by rw [hfd]; exact hin)
    rw [h1] at e
    rw [findTarget_shift g hg v f (shiftF v f) hf (moved_shift v f) t d1 (by rw [hfd]; exact hin) h1]
    dsimp only [pure, Except.pure] at e ⊢
    have hw : SideIterator.wrap (k + 1) = k + 1 := by unfold SideIterator.wrap; omega
    have hnx : (⟨k, 9, [3, 1]⟩ : SideIterator.SideIt).next = (⟨k + 1, 9, [3, 1]⟩, if k + 1 < 9 then 0 else 1) := by
      unfold SideIterator.SideIt.next; dsimp only; rw [hw]
    rw [hnx] at e ⊢
    dsimp only at e ⊢
    by_cases hgo : (if k + 1 < 9 then 0 else 1) ≠ 1 ∧ c1 ≠ 0
    · rw [if_pos hgo] at e ⊢
      exact retry_shift g hg dims hd v t fuel (k + 1) f1 d1 (by omega) (gridOK_same hf q1 r1) (q1.dims.trans hfd) e
    · rw [if_neg hgo] at e ⊢
      simp only [Except.ok.injEq, Prod.mk.injEq] at e ⊢
      exact ⟨e.1, by rw [e.2.1], e.2.2⟩

/-- Loop states on the two pairs of grids. -/
structure MovedLoop (v : Fin 2 → K) (a b : LoopState K) : Prop where
  finder : Moved v a.finder b.finder
  dI : b.dIndices = a.dIndices
  w : b.weights = a.weights

theorem node_shift (g : Gels K) (hg : KeepsSizes g) (v : Fin 2 → K) (o o' : NodeInterp K) (dims : Fin 2 → Nat) (ho : Set2 o dims) (hcd : o'.srcCellDims = o.srcCellDims)
    (k : Nat) {t : Fin 2 → K} (ht : o.target k = .ok t) (ht' : o'.target k = .ok fun i => t i + v i) (a b : LoopState K) (ha : LoopOK g o k a) (hab : MovedLoop v a b)
    {a' : LoopState K} (e : o.node g k a = .ok a') : ∃ b', o'.node g k b = .ok b' ∧ MovedLoop v a' b' := by
  have hf := gridOK_same ho.grid ha.same ha.ready
  obtain ⟨c, f, e1, r1, q1, t1, i1, err1⟩ := findTarget_good g hg a.finder hf t a.dIndices (by rw [ha.same.dims]; exact ha.pos)
  have e1' := findTarget_shift g hg v a.finder b.finder hf hab.finder t a.dIndices (by rw [ha.same.dims]; exact ha.pos) e1
  unfold NodeInterp.node at e ⊢
  rw [ht] at e
  rw [ht', hcd, hab.dI, hab.w]
  simp only [bind, Except.bind] at e ⊢
  rw [e1] at e
  rw [e1']
  dsimp only at e ⊢
  have hq := sameGrid_trans ha.same q1
  split_ifs at e ⊢ with hc hc3
  · obtain ⟨iw, hiw, _⟩ := C28_partition_of_unity f.dims (by rw [q1.dims]; exact hf.dims) f.dIndices
        (by rw [q1.dims]; exact i1)
    have hiw' : getSrcIndicesAndWeights (shiftF v f).dims (shiftF v f).dIndices = .ok iw := hiw
    rw [hiw] at e
    rw [hiw']
    simp only [pure, Except.pure, Except.ok.injEq] at e ⊢
    exact ⟨_, rfl, by rw [← e]; exact moved_shift v f, by rw [← e], by rw [← e]⟩
  · simp only [pure, Except.pure, Except.ok.injEq] at e ⊢
    exact ⟨_, rfl, by rw [← e]; exact moved_shift v f, by rw [← e], by rw [← e]⟩
  · have hsit : SideIterator.new 2 = .ok ⟨0, 9, [3, 1]⟩ := rfl
    rw [hsit] at e ⊢
    dsimp only at e ⊢
    rw [ho.cell] at e ⊢
    obtain ⟨c2, f2, d2, e2, r2, q2, t2, i2, j2⟩ := retry_good g hg dims ho.small t 9 0 f a.dIndices (by norm_num) (by norm_num)
        (gridOK_same hf q1 r1) (q1.dims.trans (ha.same.dims.trans ho.eqDims))
    have e2' : retry g (fun j => dims j - 1) t 9 (SideIterator.SideIt.reset ⟨0, 9, [3, 1]⟩) f a.dIndices = .ok (c2, f2, d2) := e2
    have e3 : retry g (fun j => dims j - 1) (fun i => t i + v i) 9 (SideIterator.SideIt.reset ⟨0, 9, [3, 1]⟩) (shiftF v f) a.dIndices = .ok (c2, shiftF v f2, d2) :=
      retry_shift g hg dims ho.small v t 9 0 f a.dIndices (by norm_num) (gridOK_same hf q1 r1) (q1.dims.trans (ha.same.dims.trans ho.eqDims)) e2
    rw [e2'] at e
    rw [e3]
    dsimp only at e ⊢
    have q2' := sameGrid_trans hq q2
    have g2 := gridOK_same ho.grid q2' r2
    have hin : InGrid f2.dims f2.dIndices := by rw [q2'.dims, ho.eqDims]; exact i2
    split_ifs at e ⊢
    · obtain ⟨p, hp, hp'⟩ := getPosition_shift v f2 g2.dims g2.coords hin
      obtain ⟨er, he⟩ := getError_isOk f2 g2.dims g2.coords (okPos_of_inGrid f2.dims g2.dims _ hin)
      rw [hp, he] at e
      rw [hp', getError_shift v f2 g2.dims g2.coords hin, he]
      simp only [pure, Except.pure, Except.ok.injEq] at e ⊢
      exact ⟨_, rfl, by rw [← e]; exact moved_shift v f2, by rw [← e], by rw [← e]⟩
    · simp only [pure, Except.pure, Except.ok.injEq] at e ⊢
      exact ⟨_, rfl, by rw [← e]; exact moved_shift v f2, by rw [← e], by rw [← e]⟩

theorem before_shift (g : Gels K) (hg : KeepsSizes g) (v : Fin 2 → K) (o o' : NodeInterp K) (dims : Fin 2 → Nat) (ho : Set2 o dims) (hcd : o'.srcCellDims = o.srcCellDims)
    (hm : Moved v o.finder o'.finder) (ht : ∀ k < o.dstNumPoints, ∀ t, o.target k = .ok t → o'.target k = .ok fun i => t i + v i) :
    ∀ k ≤ o.dstNumPoints, ∀ a, o.before g k = .ok a → ∃ b, o'.before g k = .ok b ∧ MovedLoop v a b := by
  intro k
  induction k with
  | zero =>
    intro _ a e
    refine ⟨_, rfl, ?_⟩
    have e' : ({ finder := o.finder, dIndices := startIndices o.srcCellDims, weights := [] } : LoopState K) = a := by
      simpa [NodeInterp.before, forN, forFrom] using e
    rw [← e']
    exact ⟨hm, by dsimp only; rw [hcd], rfl⟩
  | succ k ih =>
    intro hk a e
    obtain ⟨s, hs, hl⟩ := before_good g hg o dims ho k (by omega)
    obtain ⟨b, hb, hab⟩ := ih (by omega) s hs
    rw [before_succ g o k s hs] at e
    obtain ⟨t, ht1⟩ := target_ok o ho.dst k (by omega)
    rw [before_succ g o' k b hb]
    exact node_shift g hg v o o' dims ho hcd k ht1 (ht k (by omega) t ht1) s b hl hab e

/-- The smallest and the largest coordinate of moved nodes; the first node replaces what the search begins with. -/
theorem fold_min_shift (c : Nat → K) (v m0 : K) : ∀ N, 1 ≤ N → c 0 ≤ m0 → c 0 + v ≤ m0 →
    (List.range N).foldl (fun m j => if m < c j + v then m else c j + v) m0 = (List.range N).foldl (fun m j => if m < c j then m else c j) m0 + v := by
  intro N hN h1 h2
  induction N with
  | zero => omega
  | succ N ih =>
    rw [List.range_succ, List.foldl_append, List.foldl_append]
    simp only [List.foldl_cons, List.foldl_nil]
    rcases Nat.eq_zero_or_pos N with h0 | h0
    · subst h0
      change (if m0 < c 0 + v then m0 else c 0 + v) = (if m0 < c 0 then m0 else c 0) + v
      rw [if_neg (not_lt.mpr h2), if_neg (not_lt.mpr h1)]
    · rw [ih h0]
      simp only [add_lt_add_iff_right]
      split_ifs <;> rfl

theorem fold_max_shift (c : Nat → K) (v m0 : K) : ∀ N, 1 ≤ N → m0 ≤ c 0 → m0 ≤ c 0 + v →
    (List.range N).foldl (fun m j => if c j + v < m then m else c j + v) m0 = (List.range N).foldl (fun m j => if c j < m then m else c j) m0 + v := by
  intro N hN h1 h2
  induction N with
  | zero => omega
  | succ N ih =>
    rw [List.range_succ, List.foldl_append, List.foldl_append]
    simp only [List.foldl_cons, List.foldl_nil]
    rcases Nat.eq_zero_or_pos N with h0 | h0
    · subst h0
      change (if c 0 + v < m0 then m0 else c 0 + v) = (if c 0 < m0 then m0 else c 0) + v
      rw [if_neg (not_lt.mpr h2), if_neg (not_lt.mpr h1)]
    · rw [ih h0]
      simp only [add_lt_add_iff_right]
      split_ifs <;> rfl

theorem setGrid_shift (nitermax : Int) (tolpos : K) (dims : Fin n → Nat) (hd : ∀ i, 1 ≤ dims i) (per : Fin n → Int) (coords : Fin n → Nat → K) (v : Fin n → K)
    (h1 : ∀ i, -FOps.big ≤ coords i 0 ∧ coords i 0 ≤ FOps.big) (h2 : ∀ i, -FOps.big ≤ coords i 0 + v i ∧ coords i 0 + v i ≤ FOps.big) :
    Moved v ((Finder.new nitermax tolpos).setGrid dims per coords) ((Finder.new nitermax tolpos).setGrid dims per fun i k => coords i k + v i) := by
  refine ⟨fun _ => 0, ?_⟩
  have hN : 1 ≤ ∏ i, dims i := Nat.succ_le_of_lt (Finset.prod_pos fun i _ => hd i)
  unfold Finder.setGrid shiftF Finder.new
  simp only [Option.getD_none, Option.isSome_none, Bool.false_eq_true, if_false, Option.map_some, List.map_map]
  congr 3
  congr 1
  · funext i
    exact fold_min_shift (coords i) (v i) _ _ hN (h1 i).2 (h2 i).2
  · funext i
    exact fold_max_shift (coords i) (v i) _ _ hN (h1 i).1 (h2 i).1

end Sg.NodeInterp
