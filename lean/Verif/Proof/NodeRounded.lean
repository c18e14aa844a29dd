import Verif.Props.InterpRounding
/-
Search and nodal interpolation in rounded arithmetic: positions stay in the grid, and there is no undefined behaviour.
-/
namespace Sg.NodeInterp
open Sg.FindPoint Sg.LinearSolve Sg.Spec Sg.Props

variable {rnd : ℝ → ℝ} {n : Nat}

theorem cast_fl {N : Nat} (hN : KeepsInts rnd N) {m : Nat} (hm : m ≤ N) : ((m : Nat) : Fl rnd).val = m := by
  rw [Fl.natCast_val]; exact hN.int m hm

theorem truncate_fl {N : Nat} (hN : KeepsInts rnd N) (per : Fl rnd) (dims : Nat) (hd : 2 ≤ dims) (hm : dims ≤ N) (d : Fl rnd) :
    0 ≤ (truncateIndex per dims d).val ∧ (truncateIndex per dims d).val ≤ (dims : ℝ) - 1 := by
  have e : ((dims - 1 : Nat) : ℝ) = (dims : ℝ) - 1 := by push_cast [Nat.cast_sub (show 1 ≤ dims by omega)]; ring
  have h1 : (0 : ℝ) ≤ ((dims - 1 : Nat) : ℝ) := Nat.cast_nonneg _
  have hc : ((dims - 1 : Nat) : Fl rnd).val = ((dims - 1 : Nat) : ℝ) := cast_fl hN (by omega)
  unfold truncateIndex
  dsimp only
  generalize (if per ≠ 0 then FOps.fmod (FOps.fmod d per + per) per else d) = x
  rw [← e]
  split_ifs with h2 h3 h4
  · rw [hc]; exact ⟨h1, le_refl _⟩
  · exact ⟨le_refl _, h1⟩
  · rw [hc]; exact ⟨h1, le_refl _⟩
  · have h2' : ¬ x.val < 0 := h2
    have h4' : ¬ ((dims - 1 : Nat) : Fl rnd).val < x.val := h4
    rw [hc] at h4'
    exact ⟨not_lt.1 h2', not_lt.1 h4'⟩

theorem indsHi_fl {N : Nat} (hN : KeepsInts rnd N) (dims : Fin n → Nat) (hd : GoodDims dims) (hm : ∀ i, dims i ≤ N) (d : Fin n → Fl rnd)
    (h : InGrid dims (vals d)) (j : Fin n) : InGrid dims (vals (indsHi dims d j)) := by
  intro i
  unfold vals indsHi
  dsimp only
  by_cases hij : i = j
  · subst hij
    obtain ⟨h0, h1⟩ := h i
    have h2 := (hd i).1
    have e : ((dims i - 1 : Nat) : ℝ) = (dims i : ℝ) - 1 := by push_cast [Nat.cast_sub (show 1 ≤ dims i by omega)]; ring
    have hc : ((dims i - 1 : Nat) : Fl rnd).val = (dims i : ℝ) - 1 := by
      rw [← e]; exact cast_fl hN (by have := hm i; omega)
    simp only [if_true]
    split_ifs with hle
    · have hle' : (d i + 1 / (1 + 1)).val ≤ ((dims i - 1 : Nat) : Fl rnd).val := hle
      rw [hc] at hle'
      refine ⟨?_, hle'⟩
      refine hN.nonneg (add_nonneg h0 (hN.nonneg (div_nonneg zero_le_one (hN.nonneg ?_))))
      show (0 : ℝ) ≤ 1 + 1
      norm_num
    · rw [hc]; exact ⟨h0.trans h1, le_refl _⟩
  · rw [if_neg hij]; exact h i

theorem indsLo_fl {N : Nat} (hN : KeepsInts rnd N) (dims : Fin n → Nat) (hd : GoodDims dims) (hm : ∀ i, dims i ≤ N) (d : Fin n → Fl rnd)
    (h : InGrid dims (vals d)) (j : Fin n) : InGrid dims (vals (indsLo d j)) := by
  intro i
  unfold vals indsLo
  dsimp only
  by_cases hij : i = j
  · subst hij
    obtain ⟨h0, h1⟩ := h i
    have h2 := (hd i).1
    have e : ((dims i - 1 : Nat) : ℝ) = (dims i : ℝ) - 1 := by push_cast [Nat.cast_sub (show 1 ≤ dims i by omega)]; ring
    simp only [if_true]
    split_ifs with hle
    · have hle' : 0 ≤ (d i - 1 / (1 + 1)).val := hle
      refine ⟨hle', ?_⟩
      rw [← e]
      refine hN.le (by have := hm i; omega) ?_
      have : (0 : ℝ) ≤ (1 / (1 + 1) : Fl rnd).val := hN.nonneg (div_nonneg zero_le_one (hN.nonneg (show (0 : ℝ) ≤ 1 + 1 by norm_num)))
      have h1' : (d i).val ≤ (dims i : ℝ) - 1 := h1
      rw [e]
      linarith
    · exact ⟨le_refl _, h0.trans h1⟩
  · rw [if_neg hij]; exact h i

/-- A finder on a usable grid. -/
structure GridFl (N : Nat) (f : Finder (Fl rnd) n) : Prop where
  ready : Ready f
  dims : GoodDims f.dims
  fit : ∀ i, f.dims i ≤ N
  coords : ∀ i, (f.coords i).length = ∏ k, f.dims k

theorem gridFl_same {N : Nat} {a b : Finder (Fl rnd) n} (h : GridFl N a) (q : SameGrid a b) (hr : Ready b) : GridFl N b :=
  ⟨hr, by rw [q.dims]; exact h.dims, by rw [q.dims]; exact h.fit, by rw [q.dims, q.coords]; exact h.coords⟩

theorem jacobian_fl {N : Nat} (hN : KeepsInts rnd N) (s : Finder (Fl rnd) n) (h : GridFl N s) (hp : InGrid s.dims (vals s.dIndices)) :
    ∃ jr, s.computeJacobianAndRHS = .ok jr := by
  unfold Finder.computeJacobianAndRHS
  have h1 : ∀ i, ∃ v, interp s.dims s.dIndices (s.coords i) = .ok v := fun i =>
    ⟨_, interp_fl s.dims h.dims _ hp _ (h.coords i)⟩
  choose v hv using h1
  have h2 : ∀ i j, ∃ v, interp s.dims (indsHi s.dims s.dIndices j) (s.coords i) = .ok v := fun i j =>
    ⟨_, interp_fl s.dims h.dims _ (indsHi_fl hN _ h.dims h.fit _ hp j) _ (h.coords i)⟩
  choose vh hvh using h2
  have h3 : ∀ i j, ∃ v, interp s.dims (indsLo s.dIndices j) (s.coords i) = .ok v := fun i j =>
    ⟨_, interp_fl s.dims h.dims _ (indsLo_fl hN _ h.dims h.fit _ hp j) _ (h.coords i)⟩
  choose vl hvl using h3
  rw [forAxes_ok _ (fun i => s.targetPoint i - v i) (fun i => by rw [hv]; rfl)]
  rw [forAxes_ok (fun i => forAxes fun j => _) (fun i j => (vh i j - vl i j) /
    (indsHi s.dims s.dIndices j j - indsLo s.dIndices j j))]
  · exact ⟨_, rfl⟩
  · intro i
    refine forAxes_ok _ _ fun j => ?_
    dsimp only
    rw [hvh, hvl]
    rfl

theorem getPosition_fl (s : Finder (Fl rnd) n) (hd : GoodDims s.dims) (hc : ∀ i, (s.coords i).length = ∏ k, s.dims k)
    (hp : InGrid s.dims (vals s.dIndices)) : ∃ p, s.getPosition = .ok p := by
  have h1 : ∀ i, ∃ v, interp s.dims s.dIndices (s.coords i) = .ok v := fun i => ⟨_, interp_fl s.dims hd _ hp _ (hc i)⟩
  choose v hv using h1
  exact ⟨v, forAxes_ok _ v hv⟩

theorem getError_fl (s : Finder (Fl rnd) n) (hd : GoodDims s.dims) (hc : ∀ i, (s.coords i).length = ∏ k, s.dims k)
    (hp : InGrid s.dims (vals s.dIndices)) : ∃ e, s.getError = .ok e := by
  obtain ⟨p, hp⟩ := getPosition_fl s hd hc hp
  unfold Finder.getError
  rw [hp]
  exact ⟨_, rfl⟩

theorem next_fl {N : Nat} (hN : KeepsInts rnd N) (g : Gels (Fl rnd)) (hg : KeepsSizes g) (hn : 1 ≤ n) (s : Finder (Fl rnd) n) (h : GridFl N s)
    (hp : InGrid s.dims (vals s.dIndices)) :
    ∃ c s', s.next g = .ok (c, s') ∧ GridFl N s' ∧ InGrid s'.dims (vals s'.dIndices) := by
  obtain ⟨⟨b, hb⟩, slvr, hs, hok⟩ := h.ready
  obtain ⟨jr, hj⟩ := jacobian_fl hN s h hp
  have hin : InGrid s.dims (vals (s.moved g jr.1 jr.2)) := fun i => truncate_fl hN _ _ (h.dims i).1 (h.fit i) _
  obtain ⟨e, he⟩ := getError_fl { s with
    slvr := some (afterSolve g n slvr (flatten2 jr.1) (flatten1 jr.2))
    dIndices := s.moved g jr.1 jr.2 } h.dims h.coords hin
  have heq := next_eq g hg hn s b hb slvr hs hok
  split_ifs at heq with hi
  · exact ⟨_, _, heq, h, hp⟩
  · rw [hj] at heq
    simp only [bind, Except.bind] at heq
    rw [he] at heq
    refine ⟨_, _, heq, ?_⟩
    have hr := ready_next g hg hn s _ _ h.ready heq
    obtain ⟨q, -⟩ := sameGrid_next g s _ _ heq
    obtain ⟨-, -, -, hd, -⟩ := finishStep_spec _ e _ _ (rfl : (_, _) = Finder.finishStep _ e)
    refine ⟨gridFl_same h q hr, ?_⟩
    rw [q.dims, hd]
    exact hin

theorem loop_fl {N : Nat} (hN : KeepsInts rnd N) (g : Gels (Fl rnd)) (hg : KeepsSizes g) (hn : 1 ≤ n) : ∀ (k : Nat) (s : Finder (Fl rnd) n),
    GridFl N s → InGrid s.dims (vals s.dIndices) → ∃ c s', searchLoop g k s = .ok (c, s') ∧ InGrid s'.dims (vals s'.dIndices)
  | 0, s, _, hp => ⟨0, s, rfl, hp⟩
  | k + 1, s, h, hp => by
    obtain ⟨c, s1, h1, hs1, hp1⟩ := next_fl hN g hg hn s h hp
    unfold searchLoop
    rw [h1]
    simp only [bind, Except.bind, pure, Except.pure]
    split_ifs with h0
    · exact loop_fl hN g hg hn k s1 hs1 hp1
    · exact ⟨c, s1, rfl, hp1⟩

theorem findTarget_fl {N : Nat} (hN : KeepsInts rnd N) (g : Gels (Fl rnd)) (hg : KeepsSizes g) (f : Finder (Fl rnd) 2) (hf : GridFl N f)
    (t d : Fin 2 → Fl rnd) (hd : InGrid f.dims (vals d)) :
    ∃ c f', findTarget g f t d = .ok (c, f') ∧ Ready f' ∧ SameGrid f f' ∧ f'.targetPoint = t ∧
      InGrid f.dims (vals f'.dIndices) ∧ (c = 0 → ∃ e, f'.getError = .ok e ∧ e < f.tolpos) := by
  obtain ⟨c, s', h1, h3⟩ := loop_fl hN g hg (by norm_num) f.fuelOf (f.reset d t)
    ⟨ready_reset f d t hf.ready, hf.dims, hf.fit, hf.coords⟩ hd
  have h4 : findTarget g f t d = .ok (if c > 0 then 0 else c, s') := by
    unfold findTarget; rw [h1]; rfl
  obtain ⟨a1, a2, a3⟩ := findTarget_frame g hg f t d _ s' hf.ready h4
  refine ⟨_, s', h4, a1, a2, a3, by rw [← a2.dims]; exact h3, ?_⟩
  intro hc
  have hb : c = 0 → False := by
    intro h0
    have := loop_bound g _ _ _ _ h1 (fuelOf_pos f) h0
    unfold Finder.fuelOf at this
    simp only [Finder.reset] at this
    omega
  have hcode := loop_code g _ _ _ _ h1
  have hc1 : c = 1 := by
    split_ifs at hc with h
    · omega
    · exact absurd hc (by intro h; exact hb h)
  subst hc1
  have := loop_error g _ _ _ h1
  exact this

theorem sideIndices_fl {N : Nat} (hN : KeepsInts rnd N) (h31 : 2 ^ 31 ≤ N) (dims : Fin 2 → Nat) (hd : ∀ i, 2 ≤ dims i ∧ dims i ≤ 2 ^ 30) (a b : Int)
    (ha : -1 ≤ a ∧ a ≤ 1) (hb : -1 ≤ b ∧ b ≤ 1) :
    ∃ d : Fin 2 → Fl rnd, sideIndices (fun j => dims j - 1) [a, b] = .ok d ∧ InGrid dims (vals d) := by
  have key : ∀ (i : Fin 2) (x : Int), -1 ≤ x ∧ x ≤ 1 → ∃ v : Fl rnd,
      ((do let k ← iadd x 1; let p ← imul k ((dims i - 1 : Nat) : Int); return (p : Fl rnd) / (2 : Nat)) : Cxx (Fl rnd)) = .ok v ∧
        0 ≤ v.val ∧ v.val ≤ (dims i : ℝ) - 1 := by
    intro i x hx
    obtain ⟨h2, h3⟩ := hd i
    have h1 : iadd x 1 = .ok (x + 1) := by
      unfold iadd chk; rw [if_pos (by constructor <;> omega)]
    have hm : 0 ≤ (x + 1) * ((dims i - 1 : Nat) : Int) ∧ (x + 1) * ((dims i - 1 : Nat) : Int) ≤ 2 * ((dims i - 1 : Nat) : Int) := by
      constructor
      · exact mul_nonneg (by omega) (by omega)
      · exact mul_le_mul_of_nonneg_right (by omega) (by omega)
    have h4 : imul (x + 1) ((dims i - 1 : Nat) : Int) = .ok ((x + 1) * ((dims i - 1 : Nat) : Int)) := by
      unfold imul chk; rw [if_pos (by constructor <;> omega)]
    refine ⟨(((x + 1) * ((dims i - 1 : Nat) : Int) : Int) : Fl rnd) / (2 : Nat), by rw [h1]; simp only [bind, Except.bind]; rw [h4]; rfl, ?_⟩
    generalize (x + 1) * ((dims i - 1 : Nat) : Int) = p at hm
    obtain ⟨q, rfl⟩ := Int.eq_ofNat_of_zero_le hm.1
    have hq : q ≤ 2 * (dims i - 1) := by have := hm.2; omega
    have e1 : ((q : Int) : Fl rnd).val = q := by
      rw [Fl.intCast_val]; push_cast; exact hN.int q (by omega)
    have e2 : ((2 : Nat) : Fl rnd).val = 2 := by
      rw [cast_fl hN (show 2 ≤ N by omega)]; norm_num
    rw [Fl.div_val, e1, e2]
    refine ⟨hN.nonneg (by positivity), ?_⟩
    have e : ((dims i - 1 : Nat) : ℝ) = (dims i : ℝ) - 1 := by push_cast [Nat.cast_sub (show 1 ≤ dims i by omega)]; ring
    rw [← e]
    refine hN.le (by omega) ?_
    rw [div_le_iff₀ (by norm_num)]
    have : (q : ℝ) ≤ ((2 * (dims i - 1) : Nat) : ℝ) := by exact_mod_cast hq
    push_cast at this ⊢
    linarith
  obtain ⟨v0, h0, p0⟩ := key 0 a ha
  obtain ⟨v1, h1, p1⟩ := key 1 b hb
  refine ⟨![v0, v1], forAxes_ok _ _ ?_, ?_⟩
  · intro i
    fin_cases i
    · exact h0
    · exact h1
  · intro i
    fin_cases i
    · exact p0
    · exact p1

theorem retry_fl {N : Nat} (hN : KeepsInts rnd N) (h31 : 2 ^ 31 ≤ N) (g : Gels (Fl rnd)) (hg : KeepsSizes g) (dims : Fin 2 → Nat)
    (hd : ∀ i, 2 ≤ dims i ∧ dims i ≤ 2 ^ 30)
    (t : Fin 2 → Fl rnd) : ∀ (fuel k : Nat) (f : Finder (Fl rnd) 2) (d : Fin 2 → Fl rnd), fuel + k = 9 → 1 ≤ fuel → GridFl N f → f.dims = dims →
    ∃ c f' d', retry g (fun j => dims j - 1) t fuel ⟨k, 9, [3, 1]⟩ f d = .ok (c, f', d') ∧ Ready f' ∧ SameGrid f f' ∧
      f'.targetPoint = t ∧ InGrid dims (vals f'.dIndices) ∧ InGrid dims (vals d')
  | 0, k, f, d, _, h, _, _ => by omega
  | fuel + 1, k, f, d, hk, _, hf, hfd => by
    obtain ⟨a, b, hs, ha, hb⟩ := sides_nine k (by omega)
    obtain ⟨d1, hd1, hin⟩ := sideIndices_fl hN h31 dims hd a b ha hb
    unfold retry
    rw [hs]
    simp only [bind, Except.bind]
    rw [hd1]
    dsimp only
    obtain ⟨c, f1, h1, r1, q1, t1, i1, _⟩ := findTarget_fl hN g hg f hf t d1 (by rw [hfd]; exact hin)
    rw [h1]
    dsimp only [pure, Except.pure]
    rw [hfd] at i1
    have hw : SideIterator.wrap (k + 1) = k + 1 := by unfold SideIterator.wrap; omega
    have hnx : (⟨k, 9, [3, 1]⟩ : SideIterator.SideIt).next = (⟨k + 1, 9, [3, 1]⟩, if k + 1 < 9 then 0 else 1) := by
      unfold SideIterator.SideIt.next; dsimp only; rw [hw]
    rw [hnx]
    dsimp only
    by_cases hlast : fuel = 0
    · rw [if_neg (by rw [if_neg (by omega)]; omega)]
      exact ⟨c, f1, d1, rfl, r1, q1, t1, i1, hin⟩
    · by_cases hgo : (if k + 1 < 9 then 0 else 1) ≠ 1 ∧ c ≠ 0
      · rw [if_pos hgo]
        obtain ⟨c2, f2, d2, e2, r2, q2, t2, i2, j2⟩ := retry_fl hN h31 g hg dims hd t fuel (k + 1) f1 d1 (by omega) (by omega)
          (gridFl_same hf q1 r1) (q1.dims.trans hfd)
        exact ⟨c2, f2, d2, e2, r2, sameGrid_trans q1 q2, t2, i2, j2⟩
      · rw [if_neg hgo]
        exact ⟨c, f1, d1, rfl, r1, q1, t1, i1, hin⟩

/-- An interpolator whose two grids are set. -/
structure SetFl (N : Nat) (o : NodeInterp (Fl rnd)) (dims : Fin 2 → Nat) : Prop where
  grid : GridFl N o.finder
  eqDims : o.finder.dims = dims
  small : ∀ i, 2 ≤ dims i ∧ dims i ≤ 2 ^ 30
  cell : o.srcCellDims = fun j => dims j - 1
  dst : o.dstGrdCoords.length = 2 * o.dstNumPoints

/-- One entry of the table: the weights of a position in the grid, whose computed image is near the target. -/
def EntryFl (o : NodeInterp (Fl rnd)) (e : Nat × List (Int × Fl rnd)) : Prop :=
  ∃ d t, InGrid o.finder.dims (vals d) ∧ o.target e.1 = .ok t ∧ getSrcIndicesAndWeights o.finder.dims d = .ok e.2 ∧
    ∃ err, ({ o.finder with dIndices := d, targetPoint := t }).getError = .ok err ∧ err < o.finder.tolpos

structure LoopFl (g : Gels (Fl rnd)) (o : NodeInterp (Fl rnd)) (k : Nat) (s : LoopState (Fl rnd)) : Prop where
  before : o.before g k = .ok s
  ready : Ready s.finder
  same : SameGrid o.finder s.finder
  pos : InGrid o.finder.dims (vals s.dIndices)
  keys : ∀ e ∈ s.weights, e.1 < k
  sorted : SortedKeys s.weights
  entries : ∀ e ∈ s.weights, EntryFl o e

theorem node_fl {N : Nat} (hN : KeepsInts rnd N) (h31 : 2 ^ 31 ≤ N) (g : Gels (Fl rnd)) (hg : KeepsSizes g) (o : NodeInterp (Fl rnd))
    (dims : Fin 2 → Nat) (ho : SetFl N o dims) (k : Nat)
    (hk : k < o.dstNumPoints) (s : LoopState (Fl rnd)) (h : LoopFl g o k s) : ∃ s', o.node g k s = .ok s' ∧ LoopFl g o (k + 1) s' := by
  obtain ⟨t, ht⟩ := target_ok o ho.dst k hk
  have hf := gridFl_same ho.grid h.same h.ready
  obtain ⟨c, f, e1, r1, q1, t1, i1, err1⟩ := findTarget_fl hN g hg s.finder hf t s.dIndices (by rw [h.same.dims]; exact h.pos)
  have hnode : ∃ s', o.node g k s = .ok s' ∧ Ready s'.finder ∧ SameGrid o.finder s'.finder ∧ InGrid o.finder.dims (vals s'.dIndices) ∧
      ((c = 0 ∧ ∃ iw, getSrcIndicesAndWeights o.finder.dims f.dIndices = .ok iw ∧ s'.weights = s.weights.insert k iw) ∨
        (c ≠ 0 ∧ s'.weights = s.weights)) := by
    unfold NodeInterp.node
    rw [ht]
    simp only [bind, Except.bind]
    rw [e1]
    dsimp only
    split_ifs with hc hc3
    · have hiw := getSrc_fl f.dims (by rw [q1.dims]; exact hf.dims) f.dIndices (by rw [q1.dims]; exact i1)
      rw [hiw]
      refine ⟨_, rfl, r1, sameGrid_trans h.same q1, h.pos, .inl ⟨hc, _, ?_, rfl⟩⟩
      rw [← h.same.dims, ← q1.dims]; exact hiw
    · exact ⟨_, rfl, r1, sameGrid_trans h.same q1, h.pos, .inr ⟨hc, rfl⟩⟩
    · have hsit : SideIterator.new 2 = .ok ⟨0, 9, [3, 1]⟩ := rfl
      rw [hsit]
      dsimp only
      rw [ho.cell]
      obtain ⟨c2, f2, d2, e2, r2, q2, t2, i2, j2⟩ := retry_fl hN h31 g hg dims ho.small t 9 0 f s.dIndices (by norm_num) (by norm_num)
        (gridFl_same hf q1 r1) (q1.dims.trans (h.same.dims.trans ho.eqDims))
      have e2' : retry g (fun j => dims j - 1) t 9 (SideIterator.SideIt.reset ⟨0, 9, [3, 1]⟩) f s.dIndices = .ok (c2, f2, d2) := e2
      rw [e2']
      dsimp only
      have q2' := sameGrid_trans (sameGrid_trans h.same q1) q2
      have g2 := gridFl_same ho.grid q2' r2
      have j2' : InGrid o.finder.dims (vals d2) := by rw [ho.eqDims]; exact j2
      have i2' : InGrid f2.dims (vals f2.dIndices) := by rw [q2'.dims, ho.eqDims]; exact i2
      split_ifs
      · obtain ⟨p, hp⟩ := getPosition_fl f2 g2.dims g2.coords i2'
        obtain ⟨er, he⟩ := getError_fl f2 g2.dims g2.coords i2'
        rw [hp, he]
        exact ⟨_, rfl, r2, q2', j2', .inr ⟨hc, rfl⟩⟩
      · exact ⟨_, rfl, r2, q2', j2', .inr ⟨hc, rfl⟩⟩
  obtain ⟨s', hs', r', q', p', hw⟩ := hnode
  refine ⟨s', hs', ?_⟩
  have hb' := (before_succ g o k s h.before).trans hs'
  rcases hw with ⟨hc, iw, hiw, hw⟩ | ⟨hc, hw⟩
  · rw [insert_last _ _ _ h.keys] at hw
    refine ⟨hb', r', q', p', ?_, ?_, ?_⟩
    · intro e he
      rw [hw, List.mem_append, List.mem_singleton] at he
      rcases he with he | rfl
      · exact (h.keys e he).trans (Nat.lt_succ_self k)
      · exact Nat.lt_succ_self k
    · rw [hw]; exact sorted_append _ _ _ h.sorted h.keys
    · intro e he
      rw [hw, List.mem_append, List.mem_singleton] at he
      rcases he with he | rfl
      · exact h.entries e he
      · obtain ⟨er, her, hlt⟩ := err1 hc
        refine ⟨f.dIndices, t, by rw [← h.same.dims]; exact i1, ht, hiw, er, ?_, by rw [← h.same.tolpos]; exact hlt⟩
        have hq := sameGrid_trans h.same q1
        unfold Finder.getError Finder.getPosition at her ⊢
        rw [hq.dims, hq.coords, t1] at her
        exact her
  · refine ⟨hb', r', q', p', ?_, by rw [hw]; exact h.sorted, by rw [hw]; exact h.entries⟩
    intro e he
    rw [hw] at he
    exact (h.keys e he).trans (Nat.lt_succ_self k)

theorem startIndices_fl {N : Nat} (hN : KeepsInts rnd N) (h31 : 2 ^ 31 ≤ N) (dims : Fin 2 → Nat) (hd : ∀ i, 2 ≤ dims i ∧ dims i ≤ 2 ^ 30) :
    InGrid dims (vals (startIndices (fun j => dims j - 1) : Fin 2 → Fl rnd)) := by
  have key : ∀ (m a : Nat), 2 ≤ m → m ≤ 2 ^ 30 → 100000 ≤ a → a ≤ N →
      0 ≤ (((m - 1 : Nat) : Fl rnd) / ((a : Nat) / (100000 : Nat))).val ∧
        (((m - 1 : Nat) : Fl rnd) / ((a : Nat) / (100000 : Nat))).val ≤ (m : ℝ) - 1 := by
    intro m a h2 h3 ha haN
    have e : ((m - 1 : Nat) : ℝ) = (m : ℝ) - 1 := by push_cast [Nat.cast_sub (show 1 ≤ m by omega)]; ring
    rw [Fl.div_val, Fl.div_val, cast_fl hN (show m - 1 ≤ N by omega), cast_fl hN haN, cast_fl hN (show 100000 ≤ N by omega), ← e]
    have hq : (1 : ℝ) ≤ rnd ((a : ℝ) / ((100000 : Nat) : ℝ)) := by
      have : rnd ((1 : Nat) : ℝ) ≤ rnd ((a : ℝ) / ((100000 : Nat) : ℝ)) := by
        refine hN.mono ?_
        rw [le_div_iff₀ (by norm_num)]
        push_cast
        rw [one_mul]
        exact_mod_cast ha
      rw [hN.int 1 (by omega)] at this
      simpa using this
    have h0 : (0 : ℝ) ≤ ((m - 1 : Nat) : ℝ) := Nat.cast_nonneg _
    exact ⟨hN.nonneg (div_nonneg h0 (by linarith)), hN.le (by omega) (div_le_self h0 hq)⟩
  intro i
  unfold vals startIndices
  fin_cases i
  · exact key (dims 0) 214423 (hd 0).1 (hd 0).2 (by norm_num) (by omega)
  · exact key (dims 1) 193265 (hd 1).1 (hd 1).2 (by norm_num) (by omega)

theorem before_fl {N : Nat} (hN : KeepsInts rnd N) (h31 : 2 ^ 31 ≤ N) (g : Gels (Fl rnd)) (hg : KeepsSizes g) (o : NodeInterp (Fl rnd))
    (dims : Fin 2 → Nat) (ho : SetFl N o dims) : ∀ k ≤ o.dstNumPoints, ∃ s, o.before g k = .ok s ∧ LoopFl g o k s := by
  intro k
  induction k with
  | zero =>
    intro _
    refine ⟨_, rfl, rfl, ho.grid.ready, sameGrid_refl _, ?_, by simp, List.Pairwise.nil, by simp⟩
    rw [ho.cell, ho.eqDims]
    exact startIndices_fl hN h31 dims ho.small
  | succ k ih =>
    intro hk
    obtain ⟨s, hs, hl⟩ := ih (by omega)
    obtain ⟨s', hs', hl'⟩ := node_fl hN h31 g hg o dims ho k (by omega) s hl
    exact ⟨s', hl'.before, hl'⟩

theorem setFl_of {N : Nat} (h31 : 2 ^ 31 ≤ N) (nitermax : Int) (tolpos : Fl rnd) (dims : Fin 2 → Nat) (hd : ∀ i, 2 ≤ dims i ∧ dims i ≤ 2 ^ 30)
    (per : Fin 2 → Int) (coords : Fin 2 → Nat → Fl rnd) (dd : Fin 2 → Nat) (dc : Fin 2 → Nat → Fl rnd) :
    SetFl N (((new nitermax tolpos).setSrcGrid dims per coords).setDstGrid dd dc) dims where
  grid := ⟨ready_setGrid _ _ _ _, fun i => ⟨(hd i).1, (hd i).2.trans (by norm_num)⟩, fun i => (hd i).2.trans (by omega), fun i => by
    simp [NodeInterp.setDstGrid, NodeInterp.setSrcGrid, Finder.setGrid]⟩
  eqDims := rfl
  small := hd
  cell := rfl
  dst := by simp [NodeInterp.setDstGrid]

/-- The computed distance bounds the distance of the computed image, up to four roundings. -/
theorem distance_fl {u : ℝ} (hr : Rounds rnd u 0) (hu : u < 1) (p t : Fin 2 → Fl rnd) (tol : ℝ)
    (h : (FOps.sqrt ((List.finRange 2).foldl (fun res i => let dp := p i - t i; res + dp * dp) (0 : Fl rnd))).val < tol) (i : Fin 2) :
    (1 - u) ^ 4 * |(p i).val - (t i).val| < tol := by
  have lower : ∀ x, 0 ≤ x → (1 - u) * x ≤ rnd x := by
    intro x hx
    have := hr.err x
    rw [add_zero, abs_of_nonneg hx] at this
    have := (abs_le.mp this).1
    linarith
  have hu0 := hr.rel
  have h1u : 0 < 1 - u := by linarith
  have h1u' : 1 - u ≤ 1 := by linarith
  have lowabs : ∀ x, (1 - u) * |x| ≤ |rnd x| := by
    intro x
    have h1 := hr.err x
    rw [add_zero] at h1
    have h2 := abs_sub_abs_le_abs_sub x (rnd x)
    rw [abs_sub_comm] at h2
    linarith
  set a := (p 0 - t 0).val with ha
  set b := (p 1 - t 1).val with hb
  have ea : (1 - u) * |(p 0).val - (t 0).val| ≤ |a| := lowabs _
  have eb : (1 - u) * |(p 1).val - (t 1).val| ≤ |b| := lowabs _
  have h' : rnd (Real.sqrt (rnd (rnd (0 + rnd (a * a)) + rnd (b * b)))) < tol := h
  have ra : (1 - u) * a ^ 2 ≤ rnd (a * a) := by rw [pow_two]; exact lower _ (mul_self_nonneg a)
  have rb : (1 - u) * b ^ 2 ≤ rnd (b * b) := by rw [pow_two]; exact lower _ (mul_self_nonneg b)
  have na : 0 ≤ rnd (a * a) := (by positivity : 0 ≤ (1 - u) * a ^ 2).trans ra
  have nb : 0 ≤ rnd (b * b) := (by positivity : 0 ≤ (1 - u) * b ^ 2).trans rb
  have r1 : (1 - u) * rnd (a * a) ≤ rnd (0 + rnd (a * a)) := by rw [zero_add]; exact lower _ na
  have n1 : 0 ≤ rnd (0 + rnd (a * a)) := (mul_nonneg h1u.le na).trans r1
  have r2 := lower _ (add_nonneg n1 nb)
  generalize rnd (rnd (0 + rnd (a * a)) + rnd (b * b)) = S at *
  have r3 := lower _ (Real.sqrt_nonneg S)
  have q0 : 0 ≤ (1 - u) * (1 - u) := mul_nonneg h1u.le h1u.le
  have sa : ((1 - u) ^ 2 * |a|) ^ 2 ≤ S := by
    have e : ((1 - u) ^ 2 * |a|) ^ 2 = (1 - u) ^ 4 * a ^ 2 := by rw [mul_pow, sq_abs]; ring
    rw [e]
    have k1 : (1 - u) * ((1 - u) * ((1 - u) * a ^ 2)) ≤ S := by
      refine le_trans ?_ r2
      refine mul_le_mul_of_nonneg_left ?_ h1u.le
      refine le_trans (mul_le_mul_of_nonneg_left ra h1u.le) ?_
      linarith
    have k2 : (1 - u) ^ 4 * a ^ 2 ≤ (1 - u) ^ 3 * a ^ 2 :=
      mul_le_mul_of_nonneg_right (pow_le_pow_of_le_one h1u.le h1u' (by norm_num)) (sq_nonneg a)
    calc (1 - u) ^ 4 * a ^ 2 ≤ (1 - u) ^ 3 * a ^ 2 := k2
      _ = (1 - u) * ((1 - u) * ((1 - u) * a ^ 2)) := by ring
      _ ≤ S := k1
  have sb : ((1 - u) ^ 2 * |b|) ^ 2 ≤ S := by
    have e : ((1 - u) ^ 2 * |b|) ^ 2 = (1 - u) ^ 4 * b ^ 2 := by rw [mul_pow, sq_abs]; ring
    rw [e]
    have k1 : (1 - u) * ((1 - u) * b ^ 2) ≤ S := by
      refine le_trans ?_ r2
      refine mul_le_mul_of_nonneg_left ?_ h1u.le
      linarith
    have k2 : (1 - u) ^ 4 * b ^ 2 ≤ (1 - u) ^ 2 * b ^ 2 :=
      mul_le_mul_of_nonneg_right (pow_le_pow_of_le_one h1u.le h1u' (by norm_num)) (sq_nonneg b)
    calc (1 - u) ^ 4 * b ^ 2 ≤ (1 - u) ^ 2 * b ^ 2 := k2
      _ = (1 - u) * ((1 - u) * b ^ 2) := by ring
      _ ≤ S := k1
  have fin : ∀ x y : ℝ, (1 - u) * y ≤ |x| → ((1 - u) ^ 2 * |x|) ^ 2 ≤ S → (1 - u) ^ 4 * y < tol := by
    intro x y hy hs
    have k1 := Real.le_sqrt_of_sq_le hs
    have k2 : (1 - u) * ((1 - u) ^ 2 * |x|) < tol := (mul_le_mul_of_nonneg_left k1 h1u.le).trans_lt (r3.trans_lt h')
    refine lt_of_le_of_lt ?_ k2
    have k3 := mul_le_mul_of_nonneg_left hy (show 0 ≤ (1 - u) ^ 3 by positivity)
    calc (1 - u) ^ 4 * y = (1 - u) ^ 3 * ((1 - u) * y) := by ring
      _ ≤ (1 - u) ^ 3 * |x| := k3
      _ = (1 - u) * ((1 - u) ^ 2 * |x|) := by ring
  fin_cases i
  · exact fin a _ ea sa
  · exact fin b _ eb sb

end Sg.NodeInterp
