import Verif.Model.FlowRaw
import Verif.Proof.FlowApply
import Verif.Proof.FindPointRaw
import Verif.Props.FlowInterp
/-
Property C113: flow interpolation with the integers as the code keeps them.
-/
namespace Sg.Props
open Sg Sg.LinearSolve Sg.FindPoint Sg.FlowInterp Sg.BoxIterator

section generic
set_option linter.unusedSectionVars false
variable {F : Type} [Zero F] [One F] [Add F] [Sub F] [Mul F] [Div F] [Neg F] [LT F] [DecidableLT F]
  [LE F] [DecidableLE F] [DecidableEq F] [NatCast F] [IntCast F] [FOps F]

theorem okb {ε α β : Type} (a : α) (f : α → Except ε β) : (Except.ok a >>= f) = f a := rfl
theorem erb {ε α β : Type} (e : ε) (f : α → Except ε β) : (Except.error e >>= f) = .error e := rfl
theorem okl {α : Type} (a : α) : lift' (.ok a : Cxx α) = .ok a := rfl
theorem erl {α : Type} (e : UB) : lift' (.error e : Cxx α) = .error (.undefined e) := rfl

theorem isub_in {a b : Int} (h : inI32 (a - b)) : isub a b = .ok (a - b) := by simp only [isub, chk, if_pos h]
theorem imul_in {a b : Int} (h : inI32 (a * b)) : imul a b = .ok (a * b) := by simp only [imul, chk, if_pos h]

theorem toSize_small {n : Nat} (h : n < 18446744073709551616) : toSize (n : Int) = n := by unfold toSize; omega

theorem resize_small {N : Nat} (h : 2 * N ≤ 1152921504606846975) :
    resize ([] : List F) (smul 2 N) 0 = .ok (List.replicate (2 * N) 0) := by
  have e : smul 2 N = 2 * N := by unfold smul; rw [Nat.mod_eq_of_lt (by omega)]
  rw [e, resize_ok h]; simp [rsz]

/-- **C113.** A line of at least one node is taken over as without bounds on the integers, from any arrays: what is stored, and what
is undefined, is the same. -/
theorem C113_dst_partial (pert : Nat → Nat → Nat → F) (o : Flow F) {n : Nat} (h1 : 1 ≤ n) (hi : n ≤ 2147483647) {D : List Int}
    {C : List (List F)} {x y : List F} (hD : D[0]? = some (n : Int)) (hx : C[0]? = some x) (hy : C[1]? = some y) :
    o.setDstGridR pert D C = lift' (o.setDstGrid pert n x y) := by
  have i0 : isub (n : Int) 1 = .ok ((n - 1 : Nat) : Int) := by
    rw [isub_in (by unfold inI32; omega)]; congr 1; omega
  have e1 : smul 1 n = n := by unfold smul; omega
  have e2 : smul 1 (n - 1) = n - 1 := by unfold smul; omega
  unfold Flow.setDstGridR Flow.setDstGrid
  simp only [vget_eq_ok.mpr hD, vget_eq_ok.mpr hx, vget_eq_ok.mpr hy, i0, okb, okl, toSize_small (show n < 18446744073709551616 by omega),
    toSize_small (show n - 1 < 18446744073709551616 by omega), e1, e2, resize_small (F := F) (N := n) (by omega)]
  cases (forN n (List.replicate (2 * n) (0 : F)) fun i v => do
    let c ← vget x i
    vset v (i * 2 + 0) (c + pert n 0 i)) with
  | error e => rfl
  | ok v =>
    simp only [okb, okl]
    cases (forN n v fun i v => do
      let c ← vget y i
      vset v (i * 2 + 1) (c + pert n 1 i)) with
    | error e => rfl
    | ok v => rfl

/-- **C113.** A source grid with at least one node along each axis is taken over as without bounds on the integers, from any arrays;
more than `2^31 - 1` nodes overflow. -/
theorem C113_src_partial (o : Flow F) {n0 n1 : Nat} (h0 : 1 ≤ n0) (h1 : 1 ≤ n1) (hi0 : n0 ≤ 2147483647) (hi1 : n1 ≤ 2147483647)
    {D : List Int} {C : List (List F)} {x y : List F} (hD0 : D[0]? = some (n0 : Int)) (hD1 : D[1]? = some (n1 : Int))
    (hx : C[0]? = some x) (hy : C[1]? = some y) :
    o.setSrcGridR D C = lift' (o.setSrcGrid (n0, n1) x y) ∧
      (2147483647 < n0 * n1 → o.setSrcGridR D C = .error (.undefined .signedOverflow)) := by
  have i0 : isub (n0 : Int) 1 = .ok ((n0 : Int) - 1) := isub_in (by unfold inI32; omega)
  have i1 : isub (n1 : Int) 1 = .ok ((n1 : Int) - 1) := isub_in (by unfold inI32; omega)
  by_cases hbig : 2147483647 < n0 * n1
  · have e : imul (n0 : Int) (n1 : Int) = .error .signedOverflow := by
      have : ¬ inI32 ((n0 : Int) * n1) := by
        intro h
        have := h.2
        rw [show (n0 : Int) * n1 = ((n0 * n1 : Nat) : Int) by push_cast; ring] at this
        omega
      simp only [imul, chk, if_neg this]
    have er : o.setSrcGridR D C = .error (.undefined .signedOverflow) := by
      unfold Flow.setSrcGridR
      simp only [vget_eq_ok.mpr hD0, vget_eq_ok.mpr hD1, okb, okl, e, erl, erb]
    refine ⟨?_, fun _ => er⟩
    rw [er]
    unfold Flow.setSrcGrid
    simp only [e, erb, erl]
  · have hn : n0 * n1 ≤ 2147483647 := by omega
    refine ⟨?_, fun h => absurd h hbig⟩
    have e : imul (n0 : Int) (n1 : Int) = .ok ((n0 * n1 : Nat) : Int) := by
      rw [imul_in (by rw [show (n0 : Int) * n1 = ((n0 * n1 : Nat) : Int) by push_cast; ring]; unfold inI32; omega)]; push_cast; rfl
    have hcn : (n0 - 1) * (n1 - 1) ≤ 2147483647 := (Nat.mul_le_mul (Nat.sub_le _ _) (Nat.sub_le _ _)).trans hn
    have ec : ((n0 : Int) - 1) * ((n1 : Int) - 1) = (((n0 - 1) * (n1 - 1) : Nat) : Int) := by
      push_cast [Nat.cast_sub h0, Nat.cast_sub h1]; ring
    have e' : imul ((n0 : Int) - 1) ((n1 : Int) - 1) = .ok (((n0 - 1) * (n1 - 1) : Nat) : Int) := by
      rw [imul_in (by rw [ec]; unfold inI32; omega), ec]
    have okm : ∀ {α β : Type} (c : Cxx α) (f : α → Cxx β), lift' (c >>= f) = (lift' c >>= fun a => lift' (f a)) := by
      intro α β c f; cases c <;> rfl
    unfold Flow.setSrcGridR Flow.setSrcGrid
    simp only [vget_eq_ok.mpr hD0, vget_eq_ok.mpr hD1, vget_eq_ok.mpr hx, vget_eq_ok.mpr hy, i0, i1, e, e', okb, okl,
      toSize_small (show n0 * n1 < 18446744073709551616 by omega),
      toSize_small (show (n0 - 1) * (n1 - 1) < 18446744073709551616 by omega), Int.toNat_natCast,
      resize_small (F := F) (N := n0 * n1) (by omega), okm, pure, Except.pure]

/-! ### Counts that describe no grid -/

/-- **C113.** A negative number of nodes of the line throws `std::length_error`; the smallest `int` overflows. -/
theorem C113_dst_negative (pert : Nat → Nat → Nat → F) (o : Flow F) (C : List (List F)) :
    (∀ a : Nat, 1 ≤ a → a ≤ 2147483647 → o.setDstGridR pert [-(a : Int)] C = .error .lengthError) ∧
      o.setDstGridR pert [-2147483648] C = .error (.undefined .signedOverflow) := by
  constructor
  · intro a h1 h2
    have i0 : isub (-(a : Int)) 1 = .ok (-(a : Int) - 1) := isub_in (by unfold inI32; omega)
    have ht : smul 2 (smul 1 (toSize (-(a : Int)))) = 18446744073709551616 - 2 * a := by
      unfold smul toSize; omega
    have er : resize ([] : List F) (18446744073709551616 - 2 * a) 0 = .error .lengthError := by
      unfold resize; rw [if_neg (by omega)]
    unfold Flow.setDstGridR
    simp only [vget_eq_ok.mpr (show [(-(a : Int))][0]? = some (-(a : Int)) from rfl), i0, okb, okl, ht, er, erb]
  · rfl

theorem coords_nil (n : Int) : ∃ u, (srcNodeCoord ([] : List F) n) = .error u := by
  unfold srcNodeCoord
  cases imul n 2 with
  | error u => exact ⟨u, rfl⟩
  | ok k =>
    simp only [okb]
    exact ⟨_, by unfold vgetI; split <;> rfl⟩

theorem forFrom_each {σ : Type} {f : Nat → σ → Cxx σ} : ∀ (n start : Nat) (s s' : σ), forFrom start n s f = .ok s' →
    ∀ k, start ≤ k → k < start + n → ∃ t t', f k t = .ok t'
  | 0, start, s, s', h, k, h1, h2 => by omega
  | n + 1, start, s, s', h, k, h1, h2 => by
    unfold forFrom at h
    split at h
    · rename_i t e
      rcases Nat.eq_or_lt_of_le h1 with rfl | hlt
      · exact ⟨_, _, e⟩
      · exact forFrom_each n (start + 1) t s' h k hlt (by omega)
    · cases h

/-- Computing weights fails if a cell cannot be read. -/
theorem weights_fail (g : Gels F) (srt : List F → List F) (o : Flow F) {dst : Dst F} {src : Src F} (hd : o.dst = some dst)
    (hs : o.src = some src) (hn : dst.numCells ≠ 0) {k : Nat} (hk : k < src.numCells) {u : UB} (hu : src.quadCoord k = .error u) :
    ∃ u, o.computeWeights g srt = .error u := by
  cases h : o.computeWeights g srt with
  | error u => exact ⟨u, rfl⟩
  | ok o' =>
    exfalso
    unfold Flow.computeWeights at h
    simp only [hd, hs] at h
    obtain ⟨w, hw, -⟩ := bind_ok_inv h
    obtain ⟨t, t', ht⟩ := forFrom_each _ _ _ _ hw 0 (Nat.le_refl _) (by omega)
    unfold dstStep at ht
    obtain ⟨ab, -, ht⟩ := bind_ok_inv ht
    obtain ⟨r, r', hr⟩ := forFrom_each _ _ _ _ ht k (Nat.zero_le _) (by omega)
    unfold srcStep at hr
    obtain ⟨q, hq, -⟩ := bind_ok_inv hr
    rw [hu] at hq
    cases hq

/-- **C113.** A line of zero nodes is accepted; the number of its segments wraps around to `2^64 - 1`, and computing weights is
undefined. -/
theorem C113_dst_empty_refuted (g : Gels F) (srt : List F → List F) (pert : Nat → Nat → Nat → F) (o : Flow F) (C : List (List F)) :
    ∃ o', o.setDstGridR pert [0] C = .ok o' ∧ o'.src = o.src ∧ (∃ d, o'.dst = some d ∧ d.numCells = 18446744073709551615) ∧
      ∃ u, o'.computeWeights g srt = .error u := by
  refine ⟨{ o with dst := some ⟨[], 18446744073709551615⟩ }, rfl, rfl, ⟨_, rfl, rfl⟩, ?_⟩
  unfold Flow.computeWeights
  cases o.src with
  | none => exact ⟨.uninit, rfl⟩
  | some src => exact ⟨.outOfBounds, rfl⟩

/-- The iterator over any two numbers of places. -/
def boxI (a b : Int) : BoxIterator.Box := { lowEnd := [0, 0], dims := [a, b], dimProd := [b, 1], numElems := a * b }

theorem newI {a b : Int} (ha : inI32 a) (hb : inI32 b) (h : inI32 (a * b)) : BoxIterator.new [(0, a), (0, b)] = .ok (boxI a b) := by
  have e1 : chk a = .ok a := by unfold chk; rw [if_pos ha]
  have e2 : chk b = .ok b := by unfold chk; rw [if_pos hb]
  have e3 : chk (a * b) = .ok (a * b) := by unfold chk; rw [if_pos h]
  simp [BoxIterator.new, mkDims, mkNumElems, mkDimProd, isub, imul, e1, e2, e3, vget, boxI, bind, Except.bind, pure, Except.pure]

/-- Setting a source grid with any counts whose products fit. -/
theorem setSrcR {o : Flow F} {d0 d1 : Int} {C : List (List F)} (h0 : inI32 d0) (h1 : inI32 d1) (h0' : inI32 (d0 - 1))
    (h1' : inI32 (d1 - 1)) (hn : inI32 (d0 * d1)) (hc : inI32 ((d0 - 1) * (d1 - 1))) (he0 : inI32 ((d0 - 1) * d1))
    (he1 : inI32 (d0 * (d1 - 1))) :
    o.setSrcGridR [d0, d1] C = (do
      let n := toSize (d0 * d1)
      let v ← resize ([] : List F) (smul 2 n) 0
      let v ← lift' (forN n v fun i v => do
        let x ← vget C 0
        let c ← vget x i
        vset v (i * 2 + 0) c)
      let v ← lift' (forN n v fun i v => do
        let y ← vget C 1
        let c ← vget y i
        vset v (i * 2 + 1) c)
      return { o with src := some { coords := v, numPoints := n, numCells := toSize ((d0 - 1) * (d1 - 1)), nodeIt := boxI d0 d1,
                                    cellIt := boxI (d0 - 1) (d1 - 1), edgeIt0 := boxI (d0 - 1) d1, edgeIt1 := boxI d0 (d1 - 1) } }) := by
  unfold Flow.setSrcGridR
  simp only [vget_eq_ok.mpr (show [d0, d1][0]? = some d0 from rfl), vget_eq_ok.mpr (show [d0, d1][1]? = some d1 from rfl), okb, okl,
    imul_in hn, imul_in hc, isub_in h0', isub_in h1', newI h0 h1 hn, newI h0' h1' hc, newI h0' h1 he0, newI h0 h1' he1]

theorem resize_neg {m : Nat} (h1 : 1 ≤ m) (h2 : m ≤ 2147483648) :
    resize ([] : List F) (smul 2 (toSize (-(m : Int)))) 0 = .error .lengthError := by
  have ht : smul 2 (toSize (-(m : Int))) = 18446744073709551616 - 2 * m := by
    unfold smul toSize; omega
  rw [ht]
  unfold resize; rw [if_neg (by omega)]

/-- **C113.** One negative count throws `std::length_error`, if no product overflows before. -/
theorem C113_src_negative (o : Flow F) {a b : Nat} (ha : 1 ≤ a) (hb : 1 ≤ b) (C : List (List F)) :
    ((a + 1) * b ≤ 2147483648 → o.setSrcGridR [-(a : Int), (b : Int)] C = .error .lengthError) ∧
      (a * (b + 1) ≤ 2147483648 → b ≤ 2147483647 → o.setSrcGridR [(a : Int), -(b : Int)] C = .error .lengthError) := by
  have key : ∀ {d0 d1 : Int} {m : Nat}, inI32 d0 → inI32 d1 → inI32 (d0 - 1) → inI32 (d1 - 1) → d0 * d1 = -(m : Int) → 1 ≤ m →
      m ≤ 2147483648 → inI32 ((d0 - 1) * (d1 - 1)) → inI32 ((d0 - 1) * d1) → inI32 (d0 * (d1 - 1)) →
      o.setSrcGridR [d0, d1] C = .error .lengthError := by
    intro d0 d1 m h1 h2 h3 h4 h5 h6 h7 h8 h9 h10
    rw [setSrcR h1 h2 h3 h4 (by rw [h5]; unfold inI32; omega) h8 h9 h10]
    show (resize ([] : List F) (smul 2 (toSize (d0 * d1))) 0 >>= _) = _
    rw [h5, resize_neg h6 h7]
    rfl
  have hab : 1 ≤ a * b := Nat.mul_le_mul ha hb
  constructor
  · intro h
    have e : (a + 1) * b = a * b + b := by ring
    have e2 : (a + 1) * (b - 1) = a * b + b - a - 1 := by
      rw [Nat.mul_sub, e, Nat.mul_one]; omega
    have e3 : a * (b - 1) = a * b - a := by rw [Nat.mul_sub, Nat.mul_one]
    have hle : a ≤ a * b := Nat.le_mul_of_pos_right _ hb
    have c1 : (b : Int) - 1 = ((b - 1 : Nat) : Int) := by omega
    have c2 : (-(a : Int) - 1) = -((a + 1 : Nat) : Int) := by omega
    refine key (m := a * b) (by unfold inI32; omega) (by unfold inI32; omega) (by unfold inI32; omega) (by unfold inI32; omega)
      (by push_cast; ring) hab (by omega) ?_ ?_ ?_
    · rw [c1, c2, show -((a + 1 : Nat) : Int) * ((b - 1 : Nat) : Int) = -(((a + 1) * (b - 1) : Nat) : Int) by push_cast; ring, e2]
      unfold inI32; omega
    · rw [c2, show -((a + 1 : Nat) : Int) * (b : Int) = -(((a + 1) * b : Nat) : Int) by push_cast; ring]
      unfold inI32; omega
    · rw [c1, show -(a : Int) * ((b - 1 : Nat) : Int) = -((a * (b - 1) : Nat) : Int) by push_cast; ring, e3]
      unfold inI32; omega
  · intro h hb'
    have e : a * (b + 1) = a * b + a := by ring
    have e2 : (a - 1) * (b + 1) = a * b + a - b - 1 := by
      rw [Nat.sub_mul, e, Nat.one_mul]; omega
    have e3 : (a - 1) * b = a * b - b := by rw [Nat.sub_mul, Nat.one_mul]
    have hle : b ≤ a * b := Nat.le_mul_of_pos_left _ ha
    have c1 : (a : Int) - 1 = ((a - 1 : Nat) : Int) := by omega
    have c2 : (-(b : Int) - 1) = -((b + 1 : Nat) : Int) := by omega
    refine key (m := a * b) (by unfold inI32; omega) (by unfold inI32; omega) (by unfold inI32; omega) (by unfold inI32; omega)
      (by push_cast; ring) hab (by omega) ?_ ?_ ?_
    · rw [c1, c2, show ((a - 1 : Nat) : Int) * -((b + 1 : Nat) : Int) = -(((a - 1) * (b + 1) : Nat) : Int) by push_cast; ring, e2]
      unfold inI32; omega
    · rw [c1, show ((a - 1 : Nat) : Int) * -(b : Int) = -(((a - 1) * b : Nat) : Int) by push_cast; ring, e3]
      unfold inI32; omega
    · rw [c2, show (a : Int) * -((b + 1 : Nat) : Int) = -((a * (b + 1) : Nat) : Int) by push_cast; ring]
      unfold inI32; omega

theorem element_zero {a b : Int} (ha : a ≠ 0) (hb : b ≠ 0) : (boxI a b).getElement 0 = .ok [0, 0] := by
  have d : ∀ c : Int, c ≠ 0 → idiv 0 c = .ok 0 := by
    intro c hc; unfold idiv; rw [if_neg hc, Int.zero_tdiv]; rfl
  have m : ∀ c : Int, c ≠ 0 → imod 0 c = .ok 0 := by
    intro c hc; unfold imod; rw [if_neg hc, Int.zero_tdiv, Int.zero_tmod]; rfl
  simp only [Box.getElement, boxI, getElementLoop, d b hb, d 1 (by decide), m a ha, m b hb, show iadd 0 0 = .ok 0 from rfl, bind,
    Except.bind, pure, Except.pure]

theorem index_of {a b : Int} (hb : inI32 b) {i : Int} (hi : i = 0 ∨ i = 1) : (boxI a b).getIndex [i, 0] = .ok (i * b) := by
  have s : ∀ x : Int, x = 0 ∨ x = 1 → isub x 0 = .ok x := by rintro x (rfl | rfl) <;> rfl
  have m : imul i b = .ok (i * b) := imul_in (by rcases hi with rfl | rfl <;> simpa [inI32] using hb)
  have c : chk (i * b) = .ok (i * b) := by
    unfold chk; rw [if_pos]; rcases hi with rfl | rfl <;> simpa [inI32] using hb
  have a1 : iadd 0 (i * b) = .ok (i * b) := by unfold iadd; rw [Int.zero_add, c]
  have a2 : iadd (i * b) 0 = .ok (i * b) := by unfold iadd; rw [Int.add_zero, c]
  simp only [Box.getIndex, boxI, getIndexLoop, s i hi, s 0 (Or.inl rfl), m, show imul 0 1 = .ok 0 from rfl, a1, a2, bind, Except.bind]

/-- **C113.** A source grid with no nodes along an axis is accepted unless the other axis has one node; it has cells, and computing
weights for a line is undefined. -/
theorem C113_src_empty_refuted (g : Gels F) (srt : List F → List F) (o : Flow F) {n0 n1 : Nat} (hz : n0 * n1 = 0) (h0 : n0 ≠ 1)
    (h1 : n1 ≠ 1) (s0 : n0 ≤ 2147483647) (s1 : n1 ≤ 2147483647) (C : List (List F)) :
    ∃ o', o.setSrcGridR [(n0 : Int), (n1 : Int)] C = .ok o' ∧ o'.dst = o.dst ∧
      ∀ d, o.dst = some d → d.numCells ≠ 0 → ∃ u, o'.computeWeights g srt = .error u := by
  have hz' : (n0 : Int) * n1 = 0 := by exact_mod_cast hz
  have hcell : ((n0 : Int) - 1) * ((n1 : Int) - 1) ≠ 0 := Int.mul_ne_zero (by omega) (by omega)
  have hb : inI32 (((n0 : Int) - 1) * n1) ∧ inI32 ((n0 : Int) * ((n1 : Int) - 1)) ∧ inI32 (((n0 : Int) - 1) * ((n1 : Int) - 1)) := by
    rcases Nat.mul_eq_zero.mp hz with rfl | rfl
    · simp only [inI32]; push_cast; omega
    · simp only [inI32]; push_cast; omega
  have e := setSrcR (o := o) (C := C) (d0 := (n0 : Int)) (d1 := (n1 : Int)) (by unfold inI32; omega) (by unfold inI32; omega)
    (by unfold inI32; omega) (by unfold inI32; omega) (by rw [hz']; decide) hb.2.2 hb.1 hb.2.1
  rw [hz'] at e
  refine ⟨_, e.trans rfl, rfl, ?_⟩
  intro d hd hn
  have hq : ∀ (s : Src F), s.coords = [] → s.cellIt = boxI ((n0 : Int) - 1) ((n1 : Int) - 1) → s.nodeIt = boxI (n0 : Int) (n1 : Int) →
      ∃ u, s.quadCoord 0 = .error u := by
    intro s h1 h2 h3
    obtain ⟨u, hu⟩ := coords_nil (F := F) (0 * (n1 : Int))
    refine ⟨u, ?_⟩
    unfold Src.quadCoord
    rw [h2, show ((0 : Nat) : Int) = 0 from rfl, element_zero (by omega) (by omega)]
    simp only [okb, vget_eq_ok.mpr (show [(0 : Int), 0][0]? = some 0 from rfl), vget_eq_ok.mpr (show [(0 : Int), 0][1]? = some 0 from rfl)]
    unfold Src.corner
    rw [h1, h3]
    simp only [offset2D, show iadd 0 0 = .ok 0 from rfl, okb]
    rw [index_of (by unfold inI32; omega) (Or.inl rfl)]
    simp only [okb, hu, erb]
  obtain ⟨u, hu⟩ := hq { coords := [], numPoints := 0, numCells := toSize (((n0 : Int) - 1) * ((n1 : Int) - 1)), nodeIt := boxI n0 n1, cellIt := boxI ((n0 : Int) - 1) ((n1 : Int) - 1), edgeIt0 := boxI ((n0 : Int) - 1) n1, edgeIt1 := boxI n0 ((n1 : Int) - 1) } rfl rfl rfl
  refine weights_fail g srt _ hd rfl hn (k := 0) ?_ hu
  show 0 < toSize (((n0 : Int) - 1) * ((n1 : Int) - 1))
  have := hb.2.2
  unfold inI32 at this
  unfold toSize
  omega

/-- **C113.** Two negative counts are accepted as a source grid; computing weights for a line is undefined. -/
theorem C113_src_both_negative_refuted (g : Gels F) (srt : List F → List F) (o : Flow F) {a b : Nat} (ha : 1 ≤ a) (hb : 1 ≤ b)
    (hab : (a + 1) * (b + 1) ≤ 2147483647) {C : List (List F)} {x y : List F} (hx : C[0]? = some x) (hy : C[1]? = some y)
    (lx : a * b ≤ x.length) (ly : a * b ≤ y.length) :
    ∃ o', o.setSrcGridR [-(a : Int), -(b : Int)] C = .ok o' ∧ o'.dst = o.dst ∧
      ∀ d, o.dst = some d → d.numCells ≠ 0 → ∃ u, o'.computeWeights g srt = .error u := by
  have e : (a + 1) * (b + 1) = a * b + a + b + 1 := by ring
  have e0 : -(a : Int) * -(b : Int) = ((a * b : Nat) : Int) := by push_cast; ring
  have e1 : (-(a : Int) - 1) * (-(b : Int) - 1) = (((a + 1) * (b + 1) : Nat) : Int) := by push_cast; ring
  have e2 : (-(a : Int) - 1) * -(b : Int) = ((a * b + b : Nat) : Int) := by push_cast; ring
  have e3 : -(a : Int) * (-(b : Int) - 1) = ((a * b + a : Nat) : Int) := by push_cast; ring
  have er := setSrcR (o := o) (C := C) (d0 := -(a : Int)) (d1 := -(b : Int)) (by unfold inI32; omega) (by unfold inI32; omega)
    (by unfold inI32; omega) (by unfold inI32; omega) (by rw [e0]; unfold inI32; omega) (by rw [e1]; unfold inI32; omega)
    (by rw [e2]; unfold inI32; omega) (by rw [e3]; unfold inI32; omega)
  obtain ⟨v1, v2, f1, f2, l2, -⟩ := fill_ok' (a * b) x y lx ly
  simp only [e0, toSize_small (show a * b < 18446744073709551616 by omega), resize_small (F := F) (N := a * b) (by omega), okb, okl,
    vget_eq_ok.mpr hx, vget_eq_ok.mpr hy, f1, f2] at er
  refine ⟨_, er, rfl, ?_⟩
  intro d hd hn
  have hab1 : 1 ≤ a * b := Nat.mul_le_mul ha hb
  have hq : ∀ (s : Src F), s.coords = v2 → s.cellIt = boxI (-(a : Int) - 1) (-(b : Int) - 1) → s.nodeIt = boxI (-(a : Int)) (-(b : Int)) →
      ∃ u, s.quadCoord 0 = .error u := by
    intro s h1 h2 h3
    unfold Src.quadCoord
    rw [h2, show ((0 : Nat) : Int) = 0 from rfl, element_zero (by omega) (by omega)]
    simp only [okb, vget_eq_ok.mpr (show [(0 : Int), 0][0]? = some 0 from rfl), vget_eq_ok.mpr (show [(0 : Int), 0][1]? = some 0 from rfl)]
    cases s.corner 0 0 0 with
    | error u => exact ⟨u, rfl⟩
    | ok p =>
      simp only [okb]
      have : s.corner 0 0 1 = .error .outOfBounds := by
        unfold Src.corner
        rw [h1, h3]
        simp only [offset2D, show iadd 0 0 = .ok 0 from rfl, show iadd 0 1 = .ok 1 from rfl, okb]
        rw [index_of (by unfold inI32; omega) (Or.inr rfl)]
        simp only [okb]
        unfold srcNodeCoord
        have hb2 : 2 * (b + 1) ≤ (a + 1) * (b + 1) := Nat.mul_le_mul_right _ (by omega)
        rw [imul_in (by unfold inI32; omega)]
        simp only [okb]
        unfold vgetI
        rw [if_neg (by omega)]
        rfl
      exact ⟨_, by rw [this]; rfl⟩
  obtain ⟨u, hu⟩ := hq { coords := v2, numPoints := a * b, numCells := toSize ((-(a : Int) - 1) * (-(b : Int) - 1)), nodeIt := boxI (-(a : Int)) (-(b : Int)), cellIt := boxI (-(a : Int) - 1) (-(b : Int) - 1), edgeIt0 := boxI (-(a : Int) - 1) (-(b : Int)), edgeIt1 := boxI (-(a : Int)) (-(b : Int) - 1) } rfl rfl rfl
  refine weights_fail g srt _ hd rfl hn (k := 0) ?_ hu
  show 0 < toSize ((-(a : Int) - 1) * (-(b : Int) - 1))
  rw [e1, toSize_small (by omega)]
  omega

theorem last_cell {n0 n1 : Nat} (h0 : 2 ≤ n0) (h1 : 2 ≤ n1) : (n0 - 1) * (n1 - 1) - 1 = (n0 - 2) * (n1 - 1) + (n1 - 2) := by
  obtain ⟨a, rfl⟩ := Nat.exists_eq_add_of_le h0
  obtain ⟨b, rfl⟩ := Nat.exists_eq_add_of_le h1
  simp only [show 2 + a - 1 = a + 1 by omega, show 2 + b - 1 = b + 1 by omega, show 2 + a - 2 = a by omega,
    show 2 + b - 2 = b by omega]
  rw [show (a + 1) * (b + 1) = a * (b + 1) + b + 1 by ring]
  omega

theorem double_large {N : Nat} (h : 1073741824 < N) : imul ((N - 1 : Nat) : Int) 2 = .error .signedOverflow := by
  have : ¬ inI32 (((N - 1 : Nat) : Int) * 2) := by unfold inI32; omega
  simp only [imul, chk, if_neg this]

theorem quad_fails {s : Src F} {k : Nat} {c0 c1 : Int} {u : UB} (h : s.cellIt.getElement (k : Int) = .ok [c0, c1])
    (hu : s.corner c0 c1 2 = .error u) : ∃ u, s.quadCoord k = .error u := by
  cases hq : s.quadCoord k with
  | error u => exact ⟨u, rfl⟩
  | ok q =>
    unfold Src.quadCoord at hq
    rw [h] at hq
    obtain ⟨p0, -, hq⟩ := bind_ok_inv (show ((s.corner c0 c1 0 >>= _) : Cxx (QuadIntersect.Quad F)) = .ok q from hq)
    obtain ⟨p1, -, hq⟩ := bind_ok_inv hq
    rw [hu] at hq
    cases hq

theorem corner_fails {s : Src F} {n0 n1 : Nat} (h0 : 2 ≤ n0) (h1 : 2 ≤ n1) (hfit : n0 * n1 ≤ 2147483647)
    (hlarge : imul ((n0 * n1 - 1 : Nat) : Int) 2 = .error .signedOverflow) (h3 : s.nodeIt = box2 n0 n1) {c0 c1 : Int}
    (e0 : iadd c0 1 = .ok ((n0 - 1 : Nat) : Int)) (e1 : iadd c1 1 = .ok ((n1 - 1 : Nat) : Int)) :
    s.corner c0 c1 2 = .error .signedOverflow := by
  have hidx : (n0 - 1) * n1 + (n1 - 1) = n0 * n1 - 1 := by
    have : n1 ≤ n0 * n1 := Nat.le_mul_of_pos_left _ (by omega)
    rw [Nat.sub_mul, Nat.one_mul]; omega
  unfold Src.corner
  simp only [offset2D, e0, e1, okb]
  rw [h3, getIndex2 hfit (by omega) (by omega), hidx]
  simp only [okb]
  unfold srcNodeCoord
  rw [hlarge]
  rfl

theorem last_fails {n0 n1 : Nat} (h0 : 2 ≤ n0) (h1 : 2 ≤ n1) (hfit : n0 * n1 ≤ 2147483647)
    (hlarge : imul ((n0 * n1 - 1 : Nat) : Int) 2 = .error .signedOverflow) (s : Src F) (h2 : s.cellIt = box2 (n0 - 1) (n1 - 1))
    (h3 : s.nodeIt = box2 n0 n1) : ∃ u, s.quadCoord ((n0 - 1) * (n1 - 1) - 1) = .error u := by
  have hc : (n0 - 1) * (n1 - 1) ≤ n0 * n1 := Nat.mul_le_mul (by omega) (by omega)
  have hl0 : n0 ≤ n0 * n1 := Nat.le_mul_of_pos_right _ (by omega)
  have hl1 : n1 ≤ n0 * n1 := Nat.le_mul_of_pos_left _ (by omega)
  have hk := last_cell h0 h1
  have hd : ((n0 - 1) * (n1 - 1) - 1) / (n1 - 1) % (n0 - 1) = n0 - 2 := by
    rw [hk, Nat.mul_comm, Nat.mul_add_div (by omega), Nat.div_eq_of_lt (by omega), Nat.add_zero, Nat.mod_eq_of_lt (by omega)]
  have hm : ((n0 - 1) * (n1 - 1) - 1) % (n1 - 1) = n1 - 2 := by
    rw [hk, Nat.mul_comm, Nat.mul_add_mod, Nat.mod_eq_of_lt (by omega)]
  have he := getElement2 (a := n0 - 1) (b := n1 - 1) (i := (n0 - 1) * (n1 - 1) - 1) (by omega) (by omega) (by omega) (by omega) (by omega)
  rw [hd, hm, ← h2] at he
  have a0 : iadd ((n0 - 2 : Nat) : Int) 1 = .ok ((n0 - 1 : Nat) : Int) := by
    unfold iadd
    rw [show ((n0 - 2 : Nat) : Int) + 1 = ((n0 - 1 : Nat) : Int) by omega]
    exact chk_nat (by omega)
  have a1 : iadd ((n1 - 2 : Nat) : Int) 1 = .ok ((n1 - 1 : Nat) : Int) := by
    unfold iadd
    rw [show ((n1 - 2 : Nat) : Int) + 1 = ((n1 - 1 : Nat) : Int) by omega]
    exact chk_nat (by omega)
  exact quad_fails he (corner_fails h0 h1 hfit hlarge h3 a0 a1)

/-- **C113.** Computing weights on a source grid of more than `2^30` nodes is undefined, although the grid is accepted: the index of a
node is doubled as an `int`. -/
theorem C113_large_refuted (g : Gels F) (srt : List F → List F) (o o' : Flow F) {n0 n1 : Nat} (h0 : 2 ≤ n0) (h1 : 2 ≤ n1)
    (hlarge : 1073741824 < n0 * n1) {x y : List F} (hs : o.setSrcGrid (n0, n1) x y = .ok o') {d : Dst F} (hd : o.dst = some d)
    (hn : d.numCells ≠ 0) : ∃ u, o'.computeWeights g srt = .error u := by
  unfold Flow.setSrcGrid at hs
  obtain ⟨N, eN, hs⟩ := bind_ok_inv hs
  have hN : inI32 ((n0 : Int) * n1) := by
    by_contra h
    simp only [imul, chk, if_neg h] at eN
    cases eN
  have hmul : (n0 : Int) * n1 = ((n0 * n1 : Nat) : Int) := by push_cast; ring
  have hfit : n0 * n1 ≤ 2147483647 := by
    have := hN.2
    rw [hmul] at this
    omega
  have hc : (n0 - 1) * (n1 - 1) ≤ n0 * n1 := Nat.mul_le_mul (by omega) (by omega)
  have hl0 : n0 ≤ n0 * n1 := Nat.le_mul_of_pos_right _ (by omega)
  have hl1 : n1 ≤ n0 * n1 := Nat.le_mul_of_pos_left _ (by omega)
  have c0 : ((n0 : Int) - 1) = ((n0 - 1 : Nat) : Int) := by omega
  have c1 : ((n1 : Int) - 1) = ((n1 - 1 : Nat) : Int) := by omega
  simp only [c0, c1] at hs
  obtain ⟨M, eM, hs⟩ := bind_ok_inv hs
  have hM : M = (((n0 - 1) * (n1 - 1) : Nat) : Int) := by
    rw [imul_in (by rw [show ((n0 - 1 : Nat) : Int) * ((n1 - 1 : Nat) : Int) = (((n0 - 1) * (n1 - 1) : Nat) : Int) by push_cast; ring]
                    unfold inI32; omega)] at eM
    cases eM
    push_cast; ring
  rw [new2 (by omega) (by omega) hfit] at hs
  simp only [okb] at hs
  rw [new2 (a := n0 - 1) (b := n1 - 1) (by omega) (by omega) (by omega)] at hs
  simp only [okb] at hs
  obtain ⟨e0, -, hs⟩ := bind_ok_inv hs
  obtain ⟨e1, -, hs⟩ := bind_ok_inv hs
  obtain ⟨v1, -, hs⟩ := bind_ok_inv hs
  obtain ⟨v2, -, hs⟩ := bind_ok_inv hs
  cases hs
  have hcp : 1 ≤ (n0 - 1) * (n1 - 1) := Nat.mul_le_mul (show 1 ≤ n0 - 1 by omega) (show 1 ≤ n1 - 1 by omega)
  obtain ⟨u, hu⟩ := last_fails h0 h1 hfit (double_large hlarge)
    { coords := v2, numPoints := N.toNat, numCells := M.toNat, nodeIt := box2 n0 n1, cellIt := box2 (n0 - 1) (n1 - 1),
      edgeIt0 := e0, edgeIt1 := e1 } rfl rfl
  refine weights_fail g srt _ hd rfl hn (k := (n0 - 1) * (n1 - 1) - 1) ?_ hu
  show (n0 - 1) * (n1 - 1) - 1 < M.toNat
  rw [hM, Int.toNat_natCast]
  omega

end generic

open Sg.Witness

/-- A unit square and its diagonal, passed as pointers and counts. -/
example : ((do
    let o ← (Flow.new : Flow ℚ).setSrcGridR [2, 2] [[0, 0, 1, 1], [0, 1, 0, 1]]
    let o ← o.setDstGridR noPert [2] [[0, 1], [0, 1]]
    lift' ((o.computeWeights cramerGels sortReal) >>= fun o => o.apply [1, 1] [0, 0] [7]) : Call' (List ℚ))) = .ok [1] := by
  decide +kernel
example (o : Flow ℚ) : o.setSrcGridR [2, 2] [[0, 0, 1, 1], [0, 1, 0, 1]] = lift' (o.setSrcGrid (2, 2) [0, 0, 1, 1] [0, 1, 0, 1]) :=
  (C113_src_partial o (n0 := 2) (n1 := 2) (by decide) (by decide) (by decide) (by decide) rfl rfl rfl rfl).1
example (o : Flow ℚ) : o.setSrcGridR [65536, 32768] [[], []] = .error (.undefined .signedOverflow) :=
  (C113_src_partial o (n0 := 65536) (n1 := 32768) (by decide) (by decide) (by decide) (by decide) rfl rfl rfl rfl).2 (by decide)
example (o : Flow ℚ) : o.setDstGridR noPert [2] [[0, 1], [0, 1]] = lift' (o.setDstGrid noPert 2 [0, 1] [0, 1]) :=
  C113_dst_partial noPert o (by decide) (by decide) rfl rfl rfl

/-- Grids of -1 x 2, 0 x 0 and -1 x -1 nodes. -/
example (o : Flow ℚ) : o.setSrcGridR [-1, 2] [] = .error .lengthError := (C113_src_negative o (a := 1) (b := 2) (by decide) (by decide) []).1 (by decide)
example : ∃ o' : Flow ℚ, (Flow.mk none (some ⟨[0, 0, 1, 1], 1⟩) [] : Flow ℚ).setSrcGridR [0, 0] [] = .ok o' ∧
    ∃ u, o'.computeWeights cramerGels sortReal = .error u := by
  obtain ⟨o', h, -, h'⟩ := C113_src_empty_refuted cramerGels sortReal (Flow.mk none (some ⟨[0, 0, 1, 1], 1⟩) [] : Flow ℚ) (n0 := 0)
    (n1 := 0) rfl (by decide) (by decide) (by decide) (by decide) []
  exact ⟨o', h, h' _ rfl (by decide)⟩
example : ∃ o' : Flow ℚ, (Flow.mk none (some ⟨[0, 0, 1, 1], 1⟩) [] : Flow ℚ).setSrcGridR [-1, -1] [[0], [0]] = .ok o' ∧
    ∃ u, o'.computeWeights cramerGels sortReal = .error u := by
  obtain ⟨o', h, -, h'⟩ := C113_src_both_negative_refuted cramerGels sortReal (Flow.mk none (some ⟨[0, 0, 1, 1], 1⟩) [] : Flow ℚ) (a := 1)
    (b := 1) (by decide) (by decide) (by decide) (C := [[0], [0]]) (x := [0]) (y := [0]) rfl rfl (by decide) (by decide)
  exact ⟨o', h, h' _ rfl (by decide)⟩

/-- A grid of 2 x 2^29+1 nodes and any arrays that are long enough. -/
example {x y : List ℚ} (hx : 2 * 536870913 ≤ x.length) (hy : 2 * 536870913 ≤ y.length) :
    ∃ o', (Flow.mk none (some ⟨[0, 0, 1, 1], 1⟩) [] : Flow ℚ).setSrcGrid (2, 536870913) x y = .ok o' ∧
      ∃ u, o'.computeWeights cramerGels sortReal = .error u := by
  obtain ⟨v1, v2, e1, e2, -, -⟩ := fill_ok' (2 * 536870913) x y hx hy
  have h : ∃ o', (Flow.mk none (some ⟨[0, 0, 1, 1], 1⟩) [] : Flow ℚ).setSrcGrid (2, 536870913) x y = .ok o' := by
    have m1 : imul ((2 : Nat) : Int) ((536870913 : Nat) : Int) = .ok 1073741826 := by decide
    have m2 : imul (((2 : Nat) : Int) - 1) (((536870913 : Nat) : Int) - 1) = .ok 536870912 := by decide
    have n1 := newI (a := ((2 : Nat) : Int)) (b := ((536870913 : Nat) : Int)) (by decide) (by decide) (by decide)
    have n2 := newI (a := ((2 : Nat) : Int) - 1) (b := ((536870913 : Nat) : Int) - 1) (by decide) (by decide) (by decide)
    have n3 := newI (a := ((2 : Nat) : Int) - 1) (b := ((536870913 : Nat) : Int)) (by decide) (by decide) (by decide)
    have n4 := newI (a := ((2 : Nat) : Int)) (b := ((536870913 : Nat) : Int) - 1) (by decide) (by decide) (by decide)
    have k : (1073741826 : Int).toNat = 2 * 536870913 := by decide
    unfold Flow.setSrcGrid
    simp only [m1, m2, n1, n2, n3, n4, okb, k, e1, e2]
    exact ⟨_, rfl⟩
  obtain ⟨o', h⟩ := h
  exact ⟨o', h, C113_large_refuted cramerGels sortReal _ o' (by decide) (by decide) (by decide) h rfl (by decide)⟩

end Sg.Props
