import Verif.Proof.FindPoint
import Verif.Props.Interp
import Verif.Props.LinearSolve
namespace Sg.FindPoint
open Sg.LinearSolve Sg.Spec Sg.Props

section
set_option linter.unusedSectionVars false
variable {K : Type} [Field K] [LinearOrder K] [IsStrictOrderedRing K] [FloorRing K] [FOps K] [FOpsLaws K] {n : Nat}

/-- A position whose coordinates can be rounded to an `int`. -/
def OkPos (d : Fin n → K) : Prop := ∀ i, inI32 ⌊d i⌋

theorem okPos_of_inGrid (dims : Fin n → Nat) (hd : GoodDims dims) (d : Fin n → K) (h : InGrid dims d) : OkPos d := by
  intro i
  obtain ⟨h0, h1⟩ := h i
  obtain ⟨_, h2⟩ := hd i
  have hf : 0 ≤ ⌊d i⌋ := Int.floor_nonneg.2 h0
  have : ⌊d i⌋ ≤ (dims i : Int) - 1 := by
    have h3 : ((⌊d i⌋ : Int) : K) ≤ (((dims i : Int) - 1 : Int) : K) := by
      push_cast; exact (Int.floor_le _).trans h1
    exact_mod_cast h3
  constructor <;> omega

theorem loCorners_isOk (dims : Fin n → Nat) (hd : GoodDims dims) (d : Fin n → K) (h : OkPos d) :
    ∃ lo : Fin n → Nat, loCorners dims d = .ok (fun i => (lo i : Int)) ∧ ∀ i, lo i + 2 ≤ dims i := by
  have hf : ∀ i, FOps.floorI (d i) = some ⌊d i⌋ := fun i => FOpsLaws.floorI _ (h i)
  have hs : ∀ i, (FOps.floorI (d i)).isSome := fun i => by rw [hf i]; rfl
  refine ⟨fun i => (loCorner (dims i) ⌊d i⌋).toNat, ?_, ?_⟩
  · unfold loCorners
    rw [dif_pos hs]
    congr 1
    funext i
    have : (FOps.floorI (d i)).get (hs i) = ⌊d i⌋ := by rw [Option.get_of_eq_some _ (hf i)]
    rw [this, Int.toNat_of_nonneg]
    have := (hd i).1
    unfold loCorner
    dsimp only
    split_ifs <;> omega
  · intro i
    have := (hd i).1
    unfold loCorner
    dsimp only
    split_ifs <;> omega

theorem interp_isOk (dims : Fin n → Nat) (hd : GoodDims dims) (d : Fin n → K) (h : OkPos d) (field : List K)
    (hf : field.length = ∏ i, dims i) : ∃ v, interp dims d field = .ok v := by
  obtain ⟨lo, hlo, hlt⟩ := loCorners_isOk dims hd d h
  unfold interp getSrcIndicesAndWeights
  rw [hlo]
  simp only [bind, Except.bind, pure, Except.pure]
  have hidx : ∀ j, (cornerIndexWeight dims d (fun i => (lo i : Int)) j).1 = (rowMajor dims (fun i => lo i + bit n j i) : Int) := by
    intro j
    unfold cornerIndexWeight rowMajor
    dsimp only
    rw [Nat.cast_sum]
    refine Finset.sum_congr rfl fun i _ => ?_
    rw [nodeProdDims_eq n i i.2, prodDims_eq]
    unfold bit
    push_cast
    ring
  have hrd : ∀ j, ∃ v, vgetI field (cornerIndexWeight dims d (fun i => (lo i : Int)) j).1 = .ok v := by
    intro j
    have hl := rowMajor_lt dims (fun i => lo i + bit n j i) (fun i => by
      have := hlt i; have := bit_lt n j i; omega)
    rw [hidx]
    unfold vgetI
    rw [if_pos (Int.natCast_nonneg _), Int.toNat_natCast, vget_ok (by omega)]
    exact ⟨_, rfl⟩
  have gen : ∀ (l : List Nat) (c : K), ∃ v, (l.map (cornerIndexWeight dims d (fun i => (lo i : Int)))).foldlM
      (fun res e => Except.bind (vgetI field e.1) fun v => (.ok (res + e.2 * v) : Cxx K)) c = .ok v := by
    intro l
    induction l with
    | nil => intro c; exact ⟨c, rfl⟩
    | cons a l ih =>
      intro c
      obtain ⟨v, hv⟩ := hrd a
      simp only [List.map_cons, List.foldlM_cons, hv, bind, Except.bind] at ih ⊢
      exact ih _
  exact gen _ 0

theorem truncate_inGrid (per : K) (dims : Nat) (hd : 2 ≤ dims) (d : K) :
    0 ≤ truncateIndex per dims d ∧ truncateIndex per dims d ≤ (dims : K) - 1 := by
  have e : ((dims - 1 : Nat) : K) = (dims : K) - 1 := by push_cast [Nat.cast_sub (show 1 ≤ dims by omega)]; ring
  have h1 : (0 : K) ≤ ((dims - 1 : Nat) : K) := Nat.cast_nonneg _
  unfold truncateIndex
  dsimp only
  generalize (if per ≠ 0 then FOps.fmod (FOps.fmod d per + per) per else d) = x
  rw [← e]
  split_ifs with h2 h3 h4
  · exact ⟨h1, le_refl _⟩
  · exact ⟨le_refl _, h1⟩
  · exact ⟨h1, le_refl _⟩
  · exact ⟨not_lt.1 h2, not_lt.1 h4⟩

theorem truncate_id (per : K) (dims : Nat) (hd : 2 ≤ dims) (hper : per = 0 ∨ per = (dims : K)) (d : K) (h0 : 0 ≤ d)
    (h1 : d ≤ (dims : K) - 1) : truncateIndex per dims d = d := by
  have e : ((dims - 1 : Nat) : K) = (dims : K) - 1 := by push_cast [Nat.cast_sub (show 1 ≤ dims by omega)]; ring
  unfold truncateIndex
  dsimp only
  have hx : (if per ≠ 0 then FOps.fmod (FOps.fmod d per + per) per else d) = d := by
    split_ifs with hp
    · rcases hper with rfl | rfl
      · exact absurd rfl hp
      · rw [FOpsLaws.fmod_small d _ h0 (by linarith), FOpsLaws.fmod_add d _ h0 (by linarith)]
    · rfl
  rw [hx, if_neg (not_lt.2 h0), e, if_neg (not_lt.2 h1)]

theorem half_pos' : (0 : K) < 1 / (1 + 1) := by positivity

theorem indsHi_inGrid (dims : Fin n → Nat) (hd : GoodDims dims) (d : Fin n → K) (h : InGrid dims d) (j : Fin n) :
    InGrid dims (indsHi dims d j) := by
  intro i
  unfold indsHi
  dsimp only
  have hp := half_pos' (K := K)
  have e : ((dims j - 1 : Nat) : K) = (dims j : K) - 1 := by
    push_cast [Nat.cast_sub (show 1 ≤ dims j by have := (hd j).1; omega)]; ring
  by_cases hij : i = j
  · subst hij
    obtain ⟨h0, h1⟩ := h i
    simp only [if_true]
    split_ifs with hc
    · rw [e] at hc; exact ⟨by linarith, hc⟩
    · rw [e]; exact ⟨h0.trans h1, le_refl _⟩
  · rw [if_neg hij]; exact h i

theorem indsLo_inGrid (dims : Fin n → Nat) (d : Fin n → K) (h : InGrid dims d) (j : Fin n) :
    InGrid dims (indsLo d j) := by
  intro i
  unfold indsLo
  dsimp only
  have hp := half_pos' (K := K)
  by_cases hij : i = j
  · subst hij
    obtain ⟨h0, h1⟩ := h i
    simp only [if_true]
    split_ifs with hc
    · exact ⟨hc, by linarith⟩
    · exact ⟨le_refl _, h0.trans h1⟩
  · rw [if_neg hij]; exact h i

theorem hi_sub_lo (dims : Fin n → Nat) (hd : GoodDims dims) (d : Fin n → K) (h : InGrid dims d) (j : Fin n) :
    indsLo d j j < indsHi dims d j j := by
  have hp := half_pos' (K := K)
  have h2 := (hd j).1
  have e : ((dims j - 1 : Nat) : K) = (dims j : K) - 1 := by
    push_cast [Nat.cast_sub (show 1 ≤ dims j by omega)]; ring
  have h2' : (2 : K) ≤ (dims j : K) := by exact_mod_cast h2
  obtain ⟨h0, h1⟩ := h j
  unfold indsLo indsHi
  simp only [if_true]
  rw [e]
  split_ifs <;> linarith

/-- State of a finder during a search on a usable grid. -/
structure Good (s : Finder K n) : Prop where
  ready : Ready s
  dims : GoodDims s.dims
  coords : ∀ i, (s.coords i).length = ∏ k, s.dims k
  okPos : OkPos s.dIndices

theorem indsHi_okPos (dims : Fin n → Nat) (hd : GoodDims dims) (d : Fin n → K) (h : OkPos d) (j : Fin n) :
    OkPos (indsHi dims d j) := by
  intro i
  unfold indsHi
  dsimp only
  have hp := half_pos' (K := K)
  by_cases hij : i = j
  · subst hij
    simp only [if_true]
    have h2 := hd i
    split_ifs with hc
    · have h1 : ⌊d i⌋ ≤ ⌊d i + 1 / (1 + 1)⌋ := Int.floor_mono (by linarith)
      have h3 : ⌊d i + 1 / (1 + 1)⌋ ≤ ⌊((dims i - 1 : Nat) : K)⌋ := Int.floor_mono hc
      rw [Int.floor_natCast] at h3
      have := (h i).1
      constructor <;> omega
    · rw [Int.floor_natCast]; constructor <;> omega
  · rw [if_neg hij]; exact h i

theorem indsLo_okPos (d : Fin n → K) (h : OkPos d) (j : Fin n) : OkPos (indsLo d j) := by
  intro i
  unfold indsLo
  dsimp only
  have hp := half_pos' (K := K)
  by_cases hij : i = j
  · subst hij
    simp only [if_true]
    split_ifs with hc
    · have h1 : ⌊d i - 1 / (1 + 1)⌋ ≤ ⌊d i⌋ := Int.floor_mono (by linarith)
      have h2 : 0 ≤ ⌊d i - 1 / (1 + 1)⌋ := Int.floor_nonneg.2 hc
      have := (h i).2
      constructor <;> omega
    · rw [Int.floor_zero]; constructor <;> omega
  · rw [if_neg hij]; exact h i

theorem jacobian_isOk (s : Finder K n) (h : Good s) : ∃ jr, s.computeJacobianAndRHS = .ok jr := by
  unfold Finder.computeJacobianAndRHS
  have h1 : ∀ i, ∃ v, interp s.dims s.dIndices (s.coords i) = .ok v := fun i =>
    interp_isOk s.dims h.dims _ h.okPos _ (h.coords i)
  choose v hv using h1
  have h2 : ∀ i j, ∃ v, interp s.dims (indsHi s.dims s.dIndices j) (s.coords i) = .ok v := fun i j =>
    interp_isOk s.dims h.dims _ (indsHi_okPos _ h.dims _ h.okPos j) _ (h.coords i)
  choose vh hvh using h2
  have h3 : ∀ i j, ∃ v, interp s.dims (indsLo s.dIndices j) (s.coords i) = .ok v := fun i j =>
    interp_isOk s.dims h.dims _ (indsLo_okPos _ h.okPos j) _ (h.coords i)
  choose vl hvl using h3
  rw [forAxes_ok _ (fun i => s.targetPoint i - v i) (fun i => by rw [hv]; rfl)]
  rw [forAxes_ok (fun i => forAxes fun j => _) (fun i j => (vh i j - vl i j) /
    (indsHi s.dims s.dIndices j j - indsLo s.dIndices j j))]
  · exact ⟨_, rfl⟩
  · intro i
    refine forAxes_ok _ _ fun j => ?_
    dsimp only
    rw [hvh, hvl]
    rfl

theorem getError_isOk (s : Finder K n) (hd : GoodDims s.dims) (hc : ∀ i, (s.coords i).length = ∏ k, s.dims k)
    (hi : OkPos s.dIndices) : ∃ e, s.getError = .ok e := by
  unfold Finder.getError Finder.getPosition
  have h1 : ∀ i, ∃ v, interp s.dims s.dIndices (s.coords i) = .ok v := fun i =>
    interp_isOk s.dims hd _ hi _ (hc i)
  choose v hv using h1
  rw [forAxes_ok _ v hv]
  exact ⟨_, rfl⟩

theorem good_next (g : Gels K) (hg : KeepsSizes g) (hn : 1 ≤ n) (s : Finder K n) (h : Good s) :
    ∃ c s', s.next g = .ok (c, s') ∧ Good s' ∧ (InGrid s'.dims s'.dIndices ∨ s'.dIndices = s.dIndices ∧ c = -3) := by
  obtain ⟨⟨b, hb⟩, slvr, hs, hok⟩ := h.ready
  obtain ⟨jr, hj⟩ := jacobian_isOk s h
  have hin : InGrid s.dims (s.moved g jr.1 jr.2) := fun i => truncate_inGrid _ _ (h.dims i).1 _
  obtain ⟨e, he⟩ := getError_isOk { s with
    slvr := some (afterSolve g n slvr (flatten2 jr.1) (flatten1 jr.2))
    dIndices := s.moved g jr.1 jr.2 } h.dims h.coords (okPos_of_inGrid s.dims h.dims _ hin)
  have heq := next_eq g hg hn s b hb slvr hs hok
  split_ifs at heq with hi
  · exact ⟨_, _, heq, h, .inr ⟨rfl, rfl⟩⟩
  · rw [hj] at heq
    simp only [bind, Except.bind] at heq
    rw [he] at heq
    refine ⟨_, _, heq, ?_⟩
    have hr := ready_next g hg hn s _ _ h.ready heq
    have hf := next_frame g s _ _ heq
    obtain ⟨-, -, -, hd, -⟩ := finishStep_spec _ e _ _ (rfl : (_, _) = Finder.finishStep _ e)
    refine ⟨⟨hr, ?_, ?_, ?_⟩, .inl ?_⟩
    · rw [hf.2.2.1]; exact h.dims
    · rw [hf.2.2.1, hf.1]; exact h.coords
    · rw [hd]; exact okPos_of_inGrid s.dims h.dims _ hin
    · rw [hf.2.2.1, hd]; exact hin

/-! ### affine grids -/

theorem sum_affine (a0 : K) (a x : Fin n → K) :
    ∑ S : Finset (Fin n), ((if S = ∅ then a0 else 0) + ∑ j, if S = {j} then a j else 0) * ∏ i ∈ S, x i =
      a0 + ∑ j, a j * x j := by
  simp only [add_mul, Finset.sum_add_distrib, Finset.sum_mul]
  congr 1
  · rw [Finset.sum_eq_single ∅]
    · simp
    · intro S _ hS; rw [if_neg hS, zero_mul]
    · intro h; exact absurd (Finset.mem_univ _) h
  · rw [Finset.sum_comm]
    refine Finset.sum_congr rfl fun j _ => ?_
    rw [Finset.sum_eq_single {j}]
    · simp
    · intro S _ hS; rw [if_neg hS, zero_mul]
    · intro h; exact absurd (Finset.mem_univ _) h

theorem interp_affine (dims : Fin n → Nat) (hd : GoodDims dims) (d : Fin n → K) (h : InGrid dims d) (a0 : K)
    (a : Fin n → K) (field : List K) (hlen : field.length = ∏ i, dims i)
    (hf : ∀ m, (∀ i, m i < dims i) → field[rowMajor dims m]? = some (a0 + ∑ j, a j * (m j : K))) :
    interp dims d field = .ok (a0 + ∑ j, a j * d j) := by
  rw [← sum_affine]
  refine C30_multilinear_exact dims hd d h _ field hlen fun m hm => ?_
  rw [sum_affine]
  refine hf m fun i => ?_
  have := (cellLo_bounds dims hd d h i).2.2
  rcases hm i with h | h <;> omega

theorem flatten2_apply (m : Fin n → Fin n → K) (i j : Fin n) : flatten2 m (i * n + j) = m i j := by
  have hi := i.2
  have hj := j.2
  have hd : ((i : Nat) * n + j) / n = i := by
    rw [Nat.add_comm, Nat.add_mul_div_right _ _ (by omega), Nat.div_eq_of_lt hj, Nat.zero_add]
  have hm : ((i : Nat) * n + j) % n = j := by
    rw [Nat.add_comm, Nat.add_mul_mod_self_right, Nat.mod_eq_of_lt hj]
  unfold flatten2
  rw [dif_pos ⟨by omega, by omega⟩]
  have e1 : (⟨((i : Nat) * n + j) / n, by omega⟩ : Fin n) = i := Fin.ext hd
  have e2 : (⟨((i : Nat) * n + j) % n, by omega⟩ : Fin n) = j := Fin.ext hm
  rw [e1, e2]

theorem solution_spec (g : Gels K) (hg : GelsContract g) (hn : 1 ≤ n) (jac : Matrix (Fin n) (Fin n) K)
    (hdet : jac.det ≠ 0) (rhs : Fin n → K) : jac.mulVec (solution g jac rhs) = rhs := by
  obtain ⟨s, code, he, hcode, hsol⟩ := C10_square_solve_partial g hg n hn (flatten2 jac) (flatten1 rhs) (by
    by_contra hz
    push Not at hz
    apply hdet
    have : jac = 0 := by
      ext i j
      rw [← flatten2_apply jac i j]
      refine hz _ ?_
      have h1 : ((i : Nat) + 1) * n ≤ n * n := Nat.mul_le_mul_right _ i.2
      rw [Nat.succ_mul] at h1
      have := j.2
      omega
    rw [this]
    have : Nonempty (Fin n) := ⟨⟨0, by omega⟩⟩
    exact Matrix.det_zero)
  have hd : (Matrix.of fun i j : Fin n => flatten2 jac (i * n + j)) = jac := by
    ext i j; exact flatten2_apply jac i j
  rw [hd] at hcode
  have hx := hsol (hcode.2 hdet)
  have hstep := solver_step (α := Solver K × Int) g hn _ (solverOK_new n) (flatten2 jac) (flatten1 rhs) (fun s i => .ok (s, i))
  have : setAndSolve g (LinearSolve.new n n) (flatten2 jac) (flatten1 rhs) =
      .ok (afterSolve g n (LinearSolve.new n n) (flatten2 jac) (flatten1 rhs), (g (stepArgs n (flatten2 jac) (flatten1 rhs))).info) := by
    rw [← hstep]
    unfold setAndSolve
    simp only [bind, Except.bind]
    split
    · rfl
    · split
      · rfl
      · generalize Solver.solve g _ = r
        cases r <;> rfl
  rw [this] at he
  simp only [Except.ok.injEq, Prod.mk.injEq] at he
  rw [← he.1] at hx
  funext i
  have := hx i i.2
  rw [Finset.sum_range] at this
  rw [Matrix.mulVec, dotProduct]
  have hb : flatten1 rhs i = rhs i := by unfold flatten1; rw [dif_pos i.2]
  rw [hb] at this
  rw [← this]
  refine Finset.sum_congr rfl fun j _ => ?_
  have := flatten2_apply (show Fin n → Fin n → K from jac) i j
  rw [show flatten2 jac (i * n + j) = jac i j from this]
  rfl

theorem foldl_min_le (f : Nat → K) (b : K) (l : List Nat) :
    l.foldl (fun m j => if m < f j then m else f j) b ≤ b ∧ ∀ j ∈ l, l.foldl (fun m j => if m < f j then m else f j) b ≤ f j := by
  induction l generalizing b with
  | nil => simp
  | cons a l ih =>
    simp only [List.foldl_cons]
    obtain ⟨h1, h2⟩ := ih (if b < f a then b else f a)
    refine ⟨h1.trans (by split_ifs with h <;> [exact le_refl _; exact not_lt.1 h]), ?_⟩
    intro j hj
    rcases List.mem_cons.1 hj with rfl | hj
    · exact h1.trans (by split_ifs with h <;> [exact h.le; exact le_refl _])
    · exact h2 j hj

theorem le_foldl_max (f : Nat → K) (b : K) (l : List Nat) :
    b ≤ l.foldl (fun m j => if f j < m then m else f j) b ∧ ∀ j ∈ l, f j ≤ l.foldl (fun m j => if f j < m then m else f j) b := by
  induction l generalizing b with
  | nil => simp
  | cons a l ih =>
    simp only [List.foldl_cons]
    obtain ⟨h1, h2⟩ := ih (if f a < b then b else f a)
    refine ⟨le_trans (by split_ifs with h <;> [exact le_refl _; exact not_lt.1 h]) h1, ?_⟩
    intro j hj
    rcases List.mem_cons.1 hj with rfl | hj
    · exact le_trans (by split_ifs with h <;> [exact h.le; exact le_refl _]) h1
    · exact h2 j hj

/-- The bounds of a finder enclose its nodes. -/
def BoundsOK (s : Finder K n) : Prop := ∀ b, s.bounds = some b → ∀ i, ∀ v ∈ s.coords i, b.1 i ≤ v ∧ v ≤ b.2 i

theorem boundsOK_setGrid (s : Finder K n) (dims per) (coords : Fin n → Nat → K) : BoundsOK (s.setGrid dims per coords) := by
  intro b hb i v hv
  simp only [Finder.setGrid, Option.some.injEq] at hb
  subst hb
  simp only [Finder.setGrid, List.mem_map] at hv
  obtain ⟨j, hj, rfl⟩ := hv
  exact ⟨(foldl_min_le (coords i) _ _).2 j hj, (le_foldl_max (coords i) _ _).2 j hj⟩

end
end Sg.FindPoint
