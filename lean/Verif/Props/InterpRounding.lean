import Verif.Proof.InterpRounded
import Verif.Props.Rounding
/-
Property C107: weights and interpolated values in rounded arithmetic, for every number of axes.  The model is used at `Fl rnd`,
and compared with itself at the real numbers, for the same position.
-/
namespace Sg.Props
open Sg Sg.FindPoint Sg.Spec

variable {rnd : ℝ → ℝ} {n : Nat}

/-- Relative error of an interpolated value. -/
noncomputable def interpError (u : ℝ) (n : Nat) : ℝ := (1 + u) ^ (2 ^ n + 1 + 3 * n) - 1

theorem sum_range_eq (N : Nat) (f : Nat → ℝ) : ((List.range N).map f).sum = ∑ j ∈ Finset.range N, f j := by
  rw [← Finset.sum_map_val, Finset.range_val, Multiset.range, Multiset.map_coe, Multiset.sum_coe]

/-- **C107** The weights computed for a position in the grid are those of the same nodes as in exact arithmetic, and all their errors
together are at most `(1 + u)^(3 ndims) - 1`. -/
theorem C107_weights {u : ℝ} (hr : Rounds rnd u 0) {N : Nat} (hN : KeepsInts rnd N) (dims : Fin n → Nat) (hd : GoodDims dims)
    (hi : ∀ i, dims i ≤ N) (d : Fin n → Fl rnd) (h : InGrid dims (vals d)) :
    ∃ iw iwR, getSrcIndicesAndWeights dims d = .ok iw ∧ getSrcIndicesAndWeights dims (vals d) = .ok iwR ∧
      iw.map Prod.fst = iwR.map Prod.fst ∧ (List.zipWith (fun a b => |a.2.val - b.2|) iw iwR).sum ≤ (1 + u) ^ (3 * n) - 1 := by
  refine ⟨_, _, getSrc_fl dims hd d h, getSrc_ok dims hd (vals d) h, ?_, ?_⟩
  · rw [List.map_map, List.map_map]; rfl
  · rw [List.zipWith_map, List.zipWith_self, sum_range_eq]
    exact weights_error hr hN dims hd d h hi

/-- A sum over the corners. -/
theorem dot_corners {u : ℝ} (hr : Rounds rnd u 0) {N : Nat} (hN : KeepsInts rnd N) (dims : Fin n → Nat) (hd : GoodDims dims)
    (hi : ∀ i, dims i ≤ N) (d : Fin n → Fl rnd) (h : InGrid dims (vals d)) (f : Nat → Fl rnd) (M : ℝ) (hM : ∀ j, |(f j).val| ≤ M) :
    |(dot ((List.range (2 ^ n)).map fun j => (weightFl dims d j, f j))).val -
      ∑ j ∈ Finset.range (2 ^ n), (∏ i, sideWeight dims (vals d) i (bit n j i)) * (f j).val| ≤ interpError u n * M := by
  have hu := hr.rel
  have h1 := dot_error hr ((List.range (2 ^ n)).map fun j => (weightFl dims d j, f j))
  rw [List.map_map, List.map_map, List.length_map, List.length_range, sum_range_eq, sum_range_eq] at h1
  simp only [Function.comp] at h1
  have hW := weights_error hr hN dims hd d h hi
  have hM0 : 0 ≤ M := (abs_nonneg _).trans (hM 0)
  have hw0 : ∀ j, 0 ≤ ∏ i, sideWeight dims (vals d) i (bit n j i) := fun j =>
    Finset.prod_nonneg fun i _ => sideWeight_nonneg dims hd (vals d) h i _
  have hw1 := weights_sum dims (vals d)
  set w : Nat → ℝ := fun j => ∏ i, sideWeight dims (vals d) i (bit n j i) with hw
  have hA : ∑ j ∈ Finset.range (2 ^ n), |(weightFl dims d j).val * (f j).val| ≤ (1 + u) ^ (3 * n) * M := by
    calc ∑ j ∈ Finset.range (2 ^ n), |(weightFl dims d j).val * (f j).val|
        ≤ ∑ j ∈ Finset.range (2 ^ n), (|(weightFl dims d j).val - w j| + w j) * M := by
          refine Finset.sum_le_sum fun j _ => ?_
          rw [abs_mul]
          refine mul_le_mul ?_ (hM j) (abs_nonneg _) (add_nonneg (abs_nonneg _) (hw0 j))
          have := abs_add_le ((weightFl dims d j).val - w j) (w j)
          rw [sub_add_cancel, abs_of_nonneg (hw0 j)] at this
          exact this
      _ = (∑ j ∈ Finset.range (2 ^ n), |(weightFl dims d j).val - w j| + 1) * M := by
          rw [← Finset.sum_mul, Finset.sum_add_distrib, hw1]
      _ ≤ (1 + u) ^ (3 * n) * M := mul_le_mul_of_nonneg_right (by linarith) hM0
  have hD : |∑ j ∈ Finset.range (2 ^ n), (weightFl dims d j).val * (f j).val - ∑ j ∈ Finset.range (2 ^ n), w j * (f j).val| ≤
      ((1 + u) ^ (3 * n) - 1) * M := by
    rw [← Finset.sum_sub_distrib]
    refine (Finset.abs_sum_le_sum_abs _ _).trans ?_
    calc ∑ j ∈ Finset.range (2 ^ n), |(weightFl dims d j).val * (f j).val - w j * (f j).val|
        ≤ ∑ j ∈ Finset.range (2 ^ n), |(weightFl dims d j).val - w j| * M := by
          refine Finset.sum_le_sum fun j _ => ?_
          rw [← sub_mul, abs_mul]
          exact mul_le_mul_of_nonneg_left (hM j) (abs_nonneg _)
      _ ≤ _ := by rw [← Finset.sum_mul]; exact mul_le_mul_of_nonneg_right hW hM0
  unfold dotError at h1
  rw [mul_zero, add_zero] at h1
  have hp : 0 ≤ (1 + u) ^ (2 ^ n + 1) - 1 := by linarith [one_le_pow₀ (M₀ := ℝ) (a := 1 + u) (by linarith) (n := 2 ^ n + 1)]
  have h2 := h1.trans (mul_le_mul_of_nonneg_left hA hp)
  have h3 := abs_sub_le (dot ((List.range (2 ^ n)).map fun j => (weightFl dims d j, f j))).val
    (∑ j ∈ Finset.range (2 ^ n), (weightFl dims d j).val * (f j).val) (∑ j ∈ Finset.range (2 ^ n), w j * (f j).val)
  refine h3.trans ?_
  unfold interpError
  rw [pow_add]
  nlinarith [h2, hD]

theorem interp_fl (dims : Fin n → Nat) (hd : GoodDims dims) (d : Fin n → Fl rnd) (h : InGrid dims (vals d))
    (field : List (Fl rnd)) (hf : field.length = ∏ i, dims i) :
    interp dims d field = .ok (dot ((List.range (2 ^ n)).map fun j =>
      (weightFl dims d j, field.getD (rowMajor dims (cornerNode dims (vals d) j)) 0))) := by
  unfold interp
  rw [getSrc_fl dims hd d h]
  simp only [bind, Except.bind]
  have hrd : ∀ j, vgetI field (rowMajor dims (cornerNode dims (vals d) j) : Int) =
      .ok (field.getD (rowMajor dims (cornerNode dims (vals d) j)) 0) := by
    intro j
    have hlt := rowMajor_lt dims _ (cornerNode_lt dims hd (vals d) h j)
    unfold vgetI
    rw [if_pos (Int.natCast_nonneg _), Int.toNat_natCast, vget_ok (by omega)]
    simp [List.getD, List.getElem?_eq_getElem (show rowMajor dims (cornerNode dims (vals d) j) < field.length by omega)]
  have gen : ∀ (l : List Nat) (c : Fl rnd), (l.map fun j =>
      ((rowMajor dims (cornerNode dims (vals d) j) : Int), weightFl dims d j)).foldlM
        (fun res e => Except.bind (vgetI field e.1) fun v => (pure (res + e.2 * v) : Cxx (Fl rnd))) c
      = .ok ((l.map fun j => (weightFl dims d j, field.getD (rowMajor dims (cornerNode dims (vals d) j)) 0)).foldl
          (fun acc p => acc + p.1 * p.2) c) := by
    intro l
    induction l with
    | nil => intro c; rfl
    | cons a l ih =>
      intro c
      simp only [List.map_cons, List.foldlM_cons, List.foldl_cons, hrd, bind, Except.bind, pure, Except.pure] at ih ⊢
      rw [ih]
  exact gen (List.range (2 ^ n)) 0

/-- **C107** The value computed for a position in the grid differs from the one of exact arithmetic by at most
`(1 + u)^(2^ndims + 1 + 3 ndims) - 1` times the largest value at the corners of the cell. -/
theorem C107_interp {u : ℝ} (hr : Rounds rnd u 0) {N : Nat} (hN : KeepsInts rnd N) (dims : Fin n → Nat) (hd : GoodDims dims)
    (hi : ∀ i, dims i ≤ N) (d : Fin n → Fl rnd) (h : InGrid dims (vals d)) (field : List (Fl rnd)) (hlen : field.length = ∏ i, dims i)
    (M : ℝ) (hM : ∀ m v, IsCorner dims (vals d) m → field[rowMajor dims m]? = some v → |v.val| ≤ M) :
    ∃ v w, interp dims d field = .ok v ∧ interp dims (vals d) (field.map Fl.val) = .ok w ∧
      |v.val - w| ≤ ((1 + u) ^ (2 ^ n + 1 + 3 * n) - 1) * M := by
  refine ⟨_, _, interp_fl dims hd d h field hlen, interp_ok dims hd (vals d) h _ (by rw [List.length_map]; exact hlen), ?_⟩
  have e : ∀ j, (field.map Fl.val).getD (rowMajor dims (cornerNode dims (vals d) j)) 0 =
      (field.getD (rowMajor dims (cornerNode dims (vals d) j)) 0).val := by
    intro j
    have hlt := rowMajor_lt dims _ (cornerNode_lt dims hd (vals d) h j)
    rw [List.getD_eq_getElem?_getD, List.getD_eq_getElem?_getD, List.getElem?_map]
    rw [List.getElem?_eq_getElem (by omega)]
    rfl
  simp only [e]
  refine dot_corners hr hN dims hd hi d h _ M fun j => ?_
  have hlt := rowMajor_lt dims _ (cornerNode_lt dims hd (vals d) h j)
  refine hM _ _ (cornerNode_isCorner dims (vals d) j) ?_
  rw [List.getD_eq_getElem?_getD, List.getElem?_eq_getElem (by omega)]
  rfl

/-- **C107** The value lies between the smallest and the largest at the corners, up to the rounding error. -/
theorem C107_range {u : ℝ} (hr : Rounds rnd u 0) {N : Nat} (hN : KeepsInts rnd N) (dims : Fin n → Nat) (hd : GoodDims dims)
    (hi : ∀ i, dims i ≤ N) (d : Fin n → Fl rnd) (h : InGrid dims (vals d)) (field : List (Fl rnd)) (hlen : field.length = ∏ i, dims i)
    (lo hi' : ℝ) (hf : ∀ m v, IsCorner dims (vals d) m → field[rowMajor dims m]? = some v → lo ≤ v.val ∧ v.val ≤ hi') :
    ∃ v, interp dims d field = .ok v ∧
      lo - ((1 + u) ^ (2 ^ n + 1 + 3 * n) - 1) * max |lo| |hi'| ≤ v.val ∧ v.val ≤ hi' + ((1 + u) ^ (2 ^ n + 1 + 3 * n) - 1) * max |lo| |hi'| := by
  obtain ⟨v, w, hv, hw, he⟩ := C107_interp hr hN dims hd hi d h field hlen (max |lo| |hi'|) (fun m v hm hv => by
    obtain ⟨h1, h2⟩ := hf m v hm hv
    exact abs_le_max_abs_abs h1 h2)
  obtain ⟨w', hw', h1, h2⟩ := C37_range dims hd (vals d) h (field.map Fl.val) (by rw [List.length_map]; exact hlen) lo hi'
    (fun m x hm hx => by
      rw [List.getElem?_map, Option.map_eq_some_iff] at hx
      obtain ⟨y, hy, rfl⟩ := hx
      exact hf m y hm hy)
  rw [hw] at hw'
  obtain rfl := Except.ok.inj hw'
  refine ⟨v, hv, ?_, ?_⟩ <;> have := abs_le.mp he <;> linarith [this.1, this.2]

/-- **C107** A constant is reproduced up to the rounding error. -/
theorem C107_constant {u : ℝ} (hr : Rounds rnd u 0) {N : Nat} (hN : KeepsInts rnd N) (dims : Fin n → Nat) (hd : GoodDims dims)
    (hi : ∀ i, dims i ≤ N) (d : Fin n → Fl rnd) (h : InGrid dims (vals d)) (c : Fl rnd) :
    ∃ v, interp dims d (List.replicate (∏ i, dims i) c) = .ok v ∧
      |v.val - c.val| ≤ ((1 + u) ^ (2 ^ n + 1 + 3 * n) - 1) * |c.val| := by
  obtain ⟨v, hv, h1, h2⟩ := C107_range hr hN dims hd hi d h (List.replicate (∏ i, dims i) c) (List.length_replicate ..) c.val c.val
    (fun m x _ hx => by
      have := List.eq_of_mem_replicate (List.mem_of_getElem? hx)
      rw [this]; exact ⟨le_rfl, le_rfl⟩)
  rw [max_self] at h1 h2
  exact ⟨v, hv, abs_le.mpr ⟨by linarith, by linarith⟩⟩

/-! ### A case: binary digits -/

/-- Integers of `p` binary digits are kept. -/
theorem nearest_ints (p : Nat) (hp : 1 ≤ p) : KeepsInts (nearest p) (2 ^ p - 1) where
  mono := nearest_mono hp
  int k hk := by
    have h1 : 1 ≤ 2 ^ p := Nat.one_le_two_pow
    have := nearest_exact (p := p) (m := k) (k := 0) (by rw [abs_of_nonneg (by positivity)]; exact_mod_cast (show k < 2 ^ p by omega))
    simpa using this

/-- With 53 binary digits, a value interpolated between four nodes has an error of less than 12 units. -/
example (d : Fin 2 → Fl (nearest 53)) (h : InGrid ![3, 4] (vals d)) (c : Fl (nearest 53)) :
    ∃ v, interp ![3, 4] d (List.replicate 12 c) = .ok v ∧ |v.val - c.val| ≤ 12 * 2 ^ (-53 : ℤ) * |c.val| := by
  obtain ⟨v, hv, he⟩ := C107_constant (nearest_rounds 53) (nearest_ints 53 (by norm_num)) ![3, 4]
    (by intro i; fin_cases i <;> simp) (by intro i; fin_cases i <;> simp) d h c
  refine ⟨v, hv, he.trans (mul_le_mul_of_nonneg_right ?_ (abs_nonneg _))⟩
  norm_num

/-- Such positions exist: `(3/2, 3)`, on the upper boundary. -/
example : InGrid ![3, 4] (vals (fun i => ⟨(![3 / 2, 3] : Fin 2 → ℝ) i⟩ : Fin 2 → Fl (nearest 53))) := by
  intro i; fin_cases i <;> simp [vals] <;> norm_num

end Sg.Props
