import Verif.Proof.NodeRounded
import Verif.Props.FindOverlap
/-
The search of candidate cells in rounded arithmetic: indices stay in the grid, and there is no undefined behaviour.
-/
namespace Sg.FindOverlap
open Sg.FindPoint Sg.LinearSolve Sg.Spec Sg.Props Sg.NodeInterp

variable {rnd : ℝ → ℝ} {n : Nat}

/-- Positions between the first node and one past the last. -/
def NearFl (dims : Fin n → Nat) (d : Fin n → Fl rnd) : Prop := ∀ i, 0 ≤ (d i).val ∧ (d i).val ≤ (dims i : ℝ)

theorem near_of_inGrid {dims : Fin n → Nat} {d : Fin n → Fl rnd} (h : InGrid dims (vals d)) : NearFl dims d := fun i =>
  ⟨(h i).1, (h i).2.trans (by linarith)⟩

theorem near_floor {dims : Fin n → Nat} (hm : ∀ i, dims i ≤ 2 ^ 30) {d : Fin n → Fl rnd} (h : NearFl dims d) (i : Fin n) : inI32 ⌊(d i).val⌋ := by
  obtain ⟨h0, h1⟩ := h i
  have hf : 0 ≤ ⌊(d i).val⌋ := Int.floor_nonneg.2 h0
  have hf1 : ⌊(d i).val⌋ ≤ (dims i : Int) := by
    have h3 : ((⌊(d i).val⌋ : Int) : ℝ) ≤ ((dims i : Int) : ℝ) := by push_cast; exact (Int.floor_le _).trans h1
    exact_mod_cast h3
  have := hm i
  constructor <;> omega

/-- Interpolation reads nodes of the grid only, whatever the arithmetic. -/
theorem interp_near (dims : Fin n → Nat) (hd : GoodDims dims) (hm : ∀ i, dims i ≤ 2 ^ 30) (d : Fin n → Fl rnd) (h : NearFl dims d) (field : List (Fl rnd))
    (hf : field.length = ∏ i, dims i) : ∃ v, interp dims d field = .ok v := by
  have hfl : ∀ i, FOps.floorI (d i) = some ⌊(d i).val⌋ := fun i => if_pos (near_floor hm h i)
  have hs : ∀ i, (FOps.floorI (d i)).isSome := fun i => by rw [hfl i]; rfl
  have hlo : ∃ lo : Fin n → Nat, loCorners dims d = .ok (fun i => (lo i : Int)) ∧ ∀ i, lo i + 2 ≤ dims i := by
    refine ⟨fun i => (loCorner (dims i) ⌊(d i).val⌋).toNat, ?_, ?_⟩
    · unfold loCorners
      rw [dif_pos hs]
      congr 1
      funext i
      have : (FOps.floorI (d i)).get (hs i) = ⌊(d i).val⌋ := by rw [Option.get_of_eq_some _ (hfl i)]
      rw [this, Int.toNat_of_nonneg]
      have := (hd i).1
      unfold loCorner
      dsimp only
      split_ifs <;> omega
    · intro i
      have := (hd i).1
      unfold loCorner
      dsimp only
      split_ifs <;> omega
  obtain ⟨lo, hlo, hlt⟩ := hlo
  unfold interp getSrcIndicesAndWeights
  rw [hlo]
  simp only [bind, Except.bind, pure, Except.pure]
  have hidx : ∀ j, (cornerIndexWeight dims d (fun i => (lo i : Int)) j).1 = (rowMajor dims (fun i => lo i + bit n j i) : Int) := by
    intro j
    unfold cornerIndexWeight rowMajor
    dsimp only
    rw [Nat.cast_sum]
    refine Finset.sum_congr rfl fun i _ => ?_
    rw [nodeProdDims_eq n i i.2, prodDims_eq]
    unfold bit
    push_cast
    ring
  have hrd : ∀ j, ∃ v, vgetI field (cornerIndexWeight dims d (fun i => (lo i : Int)) j).1 = .ok v := by
    intro j
    have hl := rowMajor_lt dims (fun i => lo i + bit n j i) (fun i => by
      have := hlt i; have := bit_lt n j i; omega)
    rw [hidx]
    unfold vgetI
    rw [if_pos (Int.natCast_nonneg _), Int.toNat_natCast, vget_ok (by omega)]
    exact ⟨_, rfl⟩
  have gen : ∀ (l : List Nat) (c : Fl rnd), ∃ v, (l.map (cornerIndexWeight dims d (fun i => (lo i : Int)))).foldlM
      (fun res e => Except.bind (vgetI field e.1) fun v => (.ok (res + e.2 * v) : Cxx (Fl rnd))) c = .ok v := by
    intro l
    induction l with
    | nil => intro c; exact ⟨c, rfl⟩
    | cons a l ih =>
      intro c
      obtain ⟨v, hv⟩ := hrd a
      simp only [List.map_cons, List.foldlM_cons, hv, bind, Except.bind] at ih ⊢
      exact ih _
  exact gen _ 0

theorem half_fl {N : Nat} (hN : KeepsInts rnd N) : (0 : ℝ) ≤ (1 / (1 + 1) : Fl rnd).val :=
  hN.nonneg (div_nonneg zero_le_one (hN.nonneg (show (0 : ℝ) ≤ 1 + 1 by norm_num)))

theorem indsHi_near {N : Nat} (hN : KeepsInts rnd N) (dims : Fin n → Nat) (hd : GoodDims dims) (hm : ∀ i, dims i ≤ N) (d : Fin n → Fl rnd)
    (h : NearFl dims d) (j : Fin n) : NearFl dims (indsHi dims d j) := by
  intro i
  unfold indsHi
  dsimp only
  by_cases hij : i = j
  · subst hij
    obtain ⟨h0, h1⟩ := h i
    have h2 := (hd i).1
    have hc : ((dims i - 1 : Nat) : Fl rnd).val = ((dims i - 1 : Nat) : ℝ) := cast_fl hN (by have := hm i; omega)
    have hle1 : ((dims i - 1 : Nat) : ℝ) ≤ (dims i : ℝ) := by exact_mod_cast Nat.sub_le _ _
    simp only [if_true]
    split_ifs with hle
    · have hle' : (d i + 1 / (1 + 1)).val ≤ ((dims i - 1 : Nat) : Fl rnd).val := hle
      rw [hc] at hle'
      exact ⟨hN.nonneg (add_nonneg h0 (half_fl hN)), hle'.trans hle1⟩
    · rw [hc]; exact ⟨Nat.cast_nonneg _, hle1⟩
  · rw [if_neg hij]; exact h i

theorem indsLo_near {N : Nat} (hN : KeepsInts rnd N) (dims : Fin n → Nat) (hm : ∀ i, dims i ≤ N) (d : Fin n → Fl rnd)
    (h : NearFl dims d) (j : Fin n) : NearFl dims (indsLo d j) := by
  intro i
  unfold indsLo
  dsimp only
  by_cases hij : i = j
  · subst hij
    obtain ⟨h0, h1⟩ := h i
    simp only [if_true]
    split_ifs with hle
    · have hle' : 0 ≤ (d i - 1 / (1 + 1)).val := hle
      refine ⟨hle', hN.le (hm i) ?_⟩
      have := half_fl hN
      linarith
    · exact ⟨le_refl _, Nat.cast_nonneg _⟩
  · rw [if_neg hij]; exact h i

/-- The first step, from a position that may be past the last node. -/
theorem next_near {N : Nat} (hN : KeepsInts rnd N) (g : Gels (Fl rnd)) (hg : KeepsSizes g) (hn : 1 ≤ n) (s : Finder (Fl rnd) n) (h : GridFl N s)
    (hm : ∀ i, s.dims i ≤ 2 ^ 30) (hp : NearFl s.dims s.dIndices) :
    ∃ c s', s.next g = .ok (c, s') ∧ GridFl N s' ∧ SameGrid s s' ∧ (InGrid s'.dims (vals s'.dIndices) ∨ c = -3 ∧ s'.dIndices = s.dIndices) := by
  obtain ⟨⟨b, hb⟩, slvr, hs, hok⟩ := h.ready
  have hj : ∃ jr, s.computeJacobianAndRHS = .ok jr := by
    unfold Finder.computeJacobianAndRHS
    have h1 : ∀ i, ∃ v, interp s.dims s.dIndices (s.coords i) = .ok v := fun i => interp_near s.dims h.dims hm _ hp _ (h.coords i)
    choose v hv using h1
    have h2 : ∀ i j, ∃ v, interp s.dims (indsHi s.dims s.dIndices j) (s.coords i) = .ok v := fun i j =>
      interp_near s.dims h.dims hm _ (indsHi_near hN _ h.dims h.fit _ hp j) _ (h.coords i)
    choose vh hvh using h2
    have h3 : ∀ i j, ∃ v, interp s.dims (indsLo s.dIndices j) (s.coords i) = .ok v := fun i j =>
      interp_near s.dims h.dims hm _ (indsLo_near hN _ h.fit _ hp j) _ (h.coords i)
    choose vl hvl using h3
    rw [forAxes_ok _ (fun i => s.targetPoint i - v i) (fun i => by rw [hv]; rfl)]
    rw [forAxes_ok (fun i => forAxes fun j => _) (fun i j => (vh i j - vl i j) /
      (indsHi s.dims s.dIndices j j - indsLo s.dIndices j j))]
    · exact ⟨_, rfl⟩
    · intro i
      refine forAxes_ok _ _ fun j => ?_
      dsimp only
      rw [hvh, hvl]
      rfl
  obtain ⟨jr, hj⟩ := hj
  have hin : InGrid s.dims (vals (s.moved g jr.1 jr.2)) := fun i => truncate_fl hN _ _ (h.dims i).1 (h.fit i) _
  obtain ⟨e, he⟩ := getError_fl { s with
    slvr := some (afterSolve g n slvr (flatten2 jr.1) (flatten1 jr.2))
    dIndices := s.moved g jr.1 jr.2 } h.dims h.coords hin
  have heq := next_eq g hg hn s b hb slvr hs hok
  split_ifs at heq with hi
  · exact ⟨_, _, heq, h, sameGrid_refl _, .inr ⟨rfl, rfl⟩⟩
  · rw [hj] at heq
    simp only [bind, Except.bind] at heq
    rw [he] at heq
    refine ⟨_, _, heq, ?_⟩
    have hr := ready_next g hg hn s _ _ h.ready heq
    obtain ⟨q, -⟩ := sameGrid_next g s _ _ heq
    obtain ⟨-, -, -, hd, -⟩ := finishStep_spec _ e _ _ (rfl : (_, _) = Finder.finishStep _ e)
    refine ⟨gridFl_same h q hr, q, .inl ?_⟩
    rw [q.dims, hd]
    exact hin

theorem loop_near {N : Nat} (hN : KeepsInts rnd N) (g : Gels (Fl rnd)) (hg : KeepsSizes g) (hn : 1 ≤ n) (k : Nat) (s : Finder (Fl rnd) n) (h : GridFl N s)
    (hm : ∀ i, s.dims i ≤ 2 ^ 30) (hp : NearFl s.dims s.dIndices) : ∃ c s', searchLoop g k s = .ok (c, s') := by
  cases k with
  | zero => exact ⟨0, s, rfl⟩
  | succ k =>
    obtain ⟨c, s1, h1, hg1, q1, h2⟩ := next_near hN g hg hn s h hm hp
    unfold searchLoop
    rw [h1]
    simp only [bind, Except.bind, pure, Except.pure]
    split_ifs with h0
    · have hin : InGrid s1.dims (vals s1.dIndices) := by
        rcases h2 with h2 | h2
        · exact h2
        · omega
      obtain ⟨c', s', e, -⟩ := loop_fl hN g hg hn k s1 hg1 hin
      exact ⟨c', s', e⟩
    · exact ⟨c, s1, rfl⟩

theorem start_near {N : Nat} (hN : KeepsInts rnd N) (h31 : 2 ^ 31 ≤ N) (dims : Fin 2 → Nat) (hm : ∀ i, dims i ≤ 2 ^ 30) :
    NearFl dims (startIndices dims : Fin 2 → Fl rnd) := by
  have key : ∀ (m a b : Nat), m ≤ 2 ^ 30 → b ≤ a → 1 ≤ b → a ≤ N → 0 ≤ ((m : Fl rnd) / ((a : Nat) / (b : Nat))).val ∧
      ((m : Fl rnd) / ((a : Nat) / (b : Nat))).val ≤ (m : ℝ) := by
    intro m a b h1 h2 h3 h4
    have e1 : ((m : Nat) : Fl rnd).val = m := cast_fl hN (by omega)
    have ea : ((a : Nat) : Fl rnd).val = a := cast_fl hN h4
    have eb : ((b : Nat) : Fl rnd).val = b := cast_fl hN (by omega)
    have hb : (0 : ℝ) < b := by exact_mod_cast h3
    have hab : (b : ℝ) ≤ a := by exact_mod_cast h2
    have hq : (1 : ℝ) ≤ (((a : Nat) : Fl rnd) / ((b : Nat) : Fl rnd)).val := by
      rw [Fl.div_val, ea, eb]
      have : rnd ((1 : Nat) : ℝ) ≤ rnd ((a : ℝ) / b) := hN.mono (by rw [Nat.cast_one, le_div_iff₀ hb]; linarith)
      rwa [hN.int 1 (by omega), Nat.cast_one] at this
    rw [Fl.div_val, e1]
    refine ⟨hN.nonneg (div_nonneg (Nat.cast_nonneg _) (by linarith)), hN.le (by omega) (div_le_self (Nat.cast_nonneg _) hq)⟩
  intro i
  unfold startIndices
  fin_cases i
  · exact key (dims 0) 2123353 1000000 (hm 0) (by norm_num) (by norm_num) (by omega)
  · exact key (dims 1) 19647354 10000000 (hm 1) (by norm_num) (by norm_num) (by omega)

/-- The corners as real numbers. -/
def valsC (c : Corners (Fl rnd)) : Corners ℝ := ⟨vals c.lo, vals c.hi⟩

theorem update_vals {N : Nat} (hN : KeepsInts rnd N) (dims : Fin 2 → Nat) (hm : ∀ i, dims i ≤ N) (d : Fin 2 → Fl rnd) (c : Corners (Fl rnd)) (j : Fin 2) :
    ((c.update dims d).lo j).val = ((valsC c).update dims (vals d)).lo j ∧ ((c.update dims d).hi j).val = ((valsC c).update dims (vals d)).hi j := by
  have hc : ((dims j - 1 : Nat) : Fl rnd).val = ((dims j - 1 : Nat) : ℝ) := cast_fl hN (by have := hm j; omega)
  have pick : ∀ (a b : Fl rnd) (p : Prop) [Decidable p] (q : Prop) [Decidable q], (p ↔ q) → (if p then a else b).val = if q then a.val else b.val := by
    intro a b p _ q _ h
    by_cases hp : p
    · rw [if_pos hp, if_pos (h.1 hp)]
    · rw [if_neg hp, if_neg (mt h.2 hp)]
  have e1 : (if d j < c.lo j then d j else c.lo j).val = if vals d j < vals c.lo j then vals d j else vals c.lo j := pick _ _ _ _ Iff.rfl
  have e2 : (if c.hi j < d j then d j else c.hi j).val = if vals c.hi j < vals d j then vals d j else vals c.hi j := pick _ _ _ _ Iff.rfl
  unfold Corners.update valsC
  dsimp only
  constructor
  · rw [← e1]
    refine pick _ _ _ _ Iff.rfl
  · rw [← e2, ← hc]
    refine pick _ _ _ _ ?_
    exact Iff.rfl

end Sg.FindOverlap
