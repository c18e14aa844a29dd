import Verif.Model.OctreeRaw
import Verif.Proof.Cxx
import Verif.Proof.Loops
import Verif.Proof.Octree
import Verif.Proof.FindPointRun2
/-
Helper lemmas for C131: the octree on its vectors does what the octree for a fixed number of axes does.
-/
namespace Sg.Octree
open Sg.FindPoint (Stop Call' lift' toSize smul resize)
open Sg.SideIterator (toInt wrap)

theorem vget_ofFn {α : Type} {n : Nat} (w : Fin n → α) (i : Nat) (h : i < n) : vget (List.ofFn w) i = .ok (w ⟨i, h⟩) := by
  rw [vget_ok (by simpa using h)]; simp

theorem vset_ofFn {α : Type} {n : Nat} (w : Fin n → α) (i : Nat) (h : i < n) (x : α) :
    vset (List.ofFn w) i x = .ok (List.ofFn (Function.update w ⟨i, h⟩ x)) := by
  rw [vset_ok (by simpa using h)]
  congr 1
  apply List.ext_getElem (by simp)
  intro k h1 h2
  simp only [List.length_ofFn] at h2
  simp only [List.getElem_set, List.getElem_ofFn, Function.update_apply, Fin.mk.injEq]
  by_cases e : i = k
  · subst e; simp
  · rw [if_neg e, if_neg (fun h => e h.symm)]

theorem replicate_ofFn {α : Type} (n : Nat) (x : α) : List.replicate n x = List.ofFn (fun _ : Fin n => x) := by
  simp

/-- A loop that changes entry after entry. -/
theorem forN_entries {σ β : Type} {n : Nat} (A : (Fin n → β) → σ) (u : Fin n → β → β) (f : Nat → σ → Cxx σ)
    (hf : ∀ (i : Fin n) w, f i (A w) = .ok (A (Function.update w i (u i (w i))))) (v : Fin n → β) :
    forN n (A v) f = .ok (A fun i => u i (v i)) := by
  obtain ⟨s, e1, e2⟩ := forN_inv (fun k s => s = A fun i => if (i : Nat) < k then u i (v i) else v i) f n (A v) (by simp) (by
    intro k s hk hs
    refine ⟨_, hs ▸ hf ⟨k, hk⟩ _, ?_⟩
    congr 1
    funext i
    rw [Function.update_apply]
    by_cases h : i = ⟨k, hk⟩
    · subst h; simp
    · have h' : (i : Nat) ≠ k := fun e => h (Fin.ext e)
      rw [if_neg h]
      by_cases h2 : (i : Nat) < k
      · rw [if_pos h2, if_pos (by omega)]
      · rw [if_neg h2, if_neg (by omega)])
  rw [e1, e2]
  congr 2
  funext i
  rw [if_pos i.2]

variable {F : Type} [Zero F] [One F] [Add F] [Sub F] [Mul F] [Div F] [Neg F] [LT F] [DecidableLT F] [NatCast F] {n : Nat}

/-- The vectors of a tree with `n` axes, corners `a` and `b`, and `L` levels. -/
structure Rep (n : Nat) (a b : Fin n → F) (L : Nat) (t : RTree F) : Prop where
  prodDims : t.prodDims = List.ofFn fun j : Fin n => prodDims n j
  xmins : t.xmins = List.ofFn a
  xmaxs : t.xmaxs = List.ofFn b
  ndims : t.ndims = n
  nlevs : t.nlevs = L

theorem prodDims_pos (n i : Nat) (h : i < n) : prodDims n i ≠ 0 := by
  rw [prodDims_eq n i h]; positivity

theorem prodDims_lt (n i : Nat) (h : i < n) : prodDims n i < 2 ^ n := by
  rw [prodDims_eq n i h]; exact Nat.pow_lt_pow_right (by norm_num) (by omega)

omit [Zero F] [One F] [Add F] [Sub F] [Mul F] [Div F] [Neg F] [LT F] [DecidableLT F] [NatCast F] in
theorem getIndices_raw {a b : Fin n → F} {L : Nat} {t : RTree F} (h : Rep n a b L t) (q : Nat) :
    t.getIndices q = .ok (List.ofFn fun j : Fin n => getIndices n q j) := by
  unfold RTree.getIndices
  rw [h.ndims, h.prodDims, replicate_ofFn]
  refine forN_entries (fun w => List.ofFn w) (fun j _ => getIndices n q j) _ ?_ _
  intro j w
  rw [vget_ofFn _ _ j.2]
  simp only [bind, Except.bind, pure, Except.pure, if_neg (prodDims_pos n j j.2)]
  rw [vset_ofFn _ _ j.2]
  rfl

/-- Two vectors. -/
def two (w : Fin n → F × F) : List F × List F := (List.ofFn fun j => (w j).1, List.ofFn fun j => (w j).2)

omit [Zero F] [One F] [Add F] [Sub F] [Mul F] [Div F] [Neg F] [LT F] [DecidableLT F] [NatCast F] in
theorem two_eq (w : Fin n → F × F) (i : Fin n) (x : F × F) :
    two (Function.update w i x) =
      (List.ofFn (Function.update (fun j => (w j).1) i x.1), List.ofFn (Function.update (fun j => (w j).2) i x.2)) := by
  unfold two
  congr 2 <;> funext j <;> by_cases h : j = i <;> simp [Function.update_apply, h]

omit [Zero F] [One F] [Sub F] [Div F] [Neg F] [LT F] [DecidableLT F] in
theorem boxRound_ok (q : Nat) (dx : F) (lo hi : Fin n → F) :
    forN n (List.ofFn lo, List.ofFn hi) (boxRound (List.ofFn fun j : Fin n => getIndices n q j) dx) =
      .ok (List.ofFn fun j => lo j + (getIndices n q j : F) * dx, List.ofFn fun j => lo j + (getIndices n q j : F) * dx + dx) := by
  refine forN_entries two (fun j w => (w.1 + (getIndices n q j : F) * dx, w.1 + (getIndices n q j : F) * dx + dx)) _ ?_
    (fun j => (lo j, hi j))
  intro i w
  unfold boxRound two
  rw [vget_ofFn _ _ i.2]
  simp only [bind, Except.bind, pure, Except.pure]
  rw [vget_ofFn _ _ i.2]
  simp only
  rw [vset_ofFn _ _ i.2]
  simp only
  rw [vget_ofFn _ _ i.2]
  simp only
  rw [vset_ofFn _ _ i.2]
  simp only
  have := two_eq w i ((w i).1 + (getIndices n q i : F) * dx, (w i).1 + (getIndices n q i : F) * dx + dx)
  unfold two at this
  rw [this]
  simp

theorem digits_ok {a b : Fin n → F} {L : Nat} {t : RTree F} (h : Rep n a b L t) (key : List Nat) (dx : F) (lo hi : Fin n → F) :
    ∃ dx', (key.foldlM (fun (s : (List F × List F) × F) q => (do
        let inds ← t.getIndices q
        let b ← forN t.ndims s.1 (boxRound inds s.2)
        return (b, s.2 / (1 + 1)) : Cxx ((List F × List F) × F))) ((List.ofFn lo, List.ofFn hi), dx)) =
      .ok ((List.ofFn (loHiFrom key dx lo hi).1, List.ofFn (loHiFrom key dx lo hi).2), dx') := by
  induction key generalizing dx lo hi with
  | nil => exact ⟨dx, rfl⟩
  | cons q key ih =>
    obtain ⟨dx', e⟩ := ih (dx / (1 + 1)) (fun j => lo j + (getIndices n q j : F) * dx)
      (fun j => lo j + (getIndices n q j : F) * dx + dx)
    refine ⟨dx', ?_⟩
    rw [List.foldlM_cons]
    have e1 : (do
        let inds ← t.getIndices q
        let b ← forN t.ndims (List.ofFn lo, List.ofFn hi) (boxRound inds dx)
        return (b, dx / (1 + 1)) : Cxx ((List F × List F) × F)) =
        .ok ((List.ofFn fun j => lo j + (getIndices n q j : F) * dx, List.ofFn fun j => lo j + (getIndices n q j : F) * dx + dx), dx / (1 + 1)) := by
      rw [getIndices_raw h, h.ndims]
      simp only [bind, Except.bind, pure, Except.pure]
      rw [boxRound_ok]
    rw [e1]
    exact e

omit [Zero F] [One F] [Div F] [Neg F] [LT F] [DecidableLT F] [NatCast F] in
theorem scale_ok {a b : Fin n → F} {L : Nat} {t : RTree F} (h : Rep n a b L t) (lo hi : Fin n → F) :
    forN n (List.ofFn lo, List.ofFn hi) (scaleRound t) =
      .ok (List.ofFn fun j => lo j * (b j - a j) + a j, List.ofFn fun j => hi j * (b j - a j) + a j) := by
  refine forN_entries two (fun j w => (w.1 * (b j - a j) + a j, w.2 * (b j - a j) + a j)) _ ?_ (fun j => (lo j, hi j))
  intro i w
  rw [two_eq]
  unfold scaleRound two
  rw [h.xmins, h.xmaxs]
  simp only [bind, Except.bind, pure, Except.pure, vget_ofFn _ _ i.2, vset_ofFn _ _ i.2, Function.update_self,
    Function.update_idem]

/-- The box of a key, on empty vectors. -/
theorem computeLoHi_raw {a b : Fin n → F} {L : Nat} {t : RTree F} (h : Rep n a b L t) (key : List Nat) :
    t.computeLoHi key [] [] = .ok (List.ofFn (computeLoHi a b key).1, List.ofFn (computeLoHi a b key).2) := by
  unfold RTree.computeLoHi
  obtain ⟨dx', e⟩ := digits_ok h key (1 / (1 + 1)) (fun _ => 0) (fun _ => 1)
  have e2 := FindPoint.forN_list (fun q (s : (List F × List F) × F) => (do
        let inds ← t.getIndices q
        let b ← forN t.ndims s.1 (boxRound inds s.2)
        return (b, s.2 / (1 + 1)) : Cxx ((List F × List F) × F))) key ((List.ofFn fun _ : Fin n => 0, List.ofFn fun _ : Fin n => 1), (1 / (1 + 1) : F))
  rw [e] at e2
  simp only [List.take_nil, List.nil_append, List.length_nil, Nat.sub_zero, replicate_ofFn, h.ndims] at e2 ⊢
  rw [e2]
  simp only [bind, Except.bind]
  rw [scale_ok h]
  rfl

/-- One level of `getKey`. -/
theorem level_ok [HasFloor F] {a b : Fin n → F} {L : Nat} {t : RTree F} (h : Rep n a b L t) (hn : n < 64) (x base : Fin n → F) (el : Nat)
    (key : List Nat) (he : key[el]? = some 0) (fact : F) :
    (forN t.ndims (List.ofFn base, key) fun j s => (do
      let xj ← vget (List.ofFn x) j
      let bj ← vget s.1 j
      let indx := axisIndex fact xj bj
      let xbase ← vset s.1 j (bj + (indx : F) / fact)
      let k ← vget s.2 el
      let p ← vget t.prodDims j
      let key ← vset s.2 el (wrap (k + smul p indx))
      return (xbase, key) : Cxx (List F × List Nat))) =
    .ok (List.ofFn fun j => base j + (axisIndex fact (x j) (base j) : F) / fact,
      key.set el (∑ j : Fin n, prodDims n j * axisIndex fact (x j) (base j))) := by
  rw [h.ndims, h.prodDims]
  let g : Nat → Nat := fun j => if hj : j < n then prodDims n j * axisIndex fact (x ⟨j, hj⟩) (base ⟨j, hj⟩) else 0
  have hel : el < key.length := by
    rcases Nat.lt_or_ge el key.length with h | h
    · exact h
    · rw [List.getElem?_eq_none h] at he; cases he
  have htot : ∑ j : Fin n, prodDims n j * axisIndex fact (x j) (base j) = ∑ j ∈ Finset.range n, g j := by
    rw [Finset.sum_range]
    refine Finset.sum_congr rfl fun j _ => ?_
    simp [g]
  have hb : ∑ j ∈ Finset.range n, g j < 2 ^ n := by
    rw [← htot]; exact digit_lt _ fun j => axisIndex_le_one _ _ _
  have h63 : 2 ^ n ≤ 2 ^ 63 := Nat.pow_le_pow_right (by norm_num) (by omega)
  have h63' : (2 : Nat) ^ 63 < 18446744073709551616 := by norm_num
  obtain ⟨s, e1, e2, e3⟩ := forN_inv (fun k (s : List F × List Nat) =>
      s.1 = List.ofFn (fun j : Fin n => if (j : Nat) < k then base j + (axisIndex fact (x j) (base j) : F) / fact else base j) ∧
      s.2 = key.set el (∑ j ∈ Finset.range k, g j)) (fun j s => (do
      let xj ← vget (List.ofFn x) j
      let bj ← vget s.1 j
      let indx := axisIndex fact xj bj
      let xbase ← vset s.1 j (bj + (indx : F) / fact)
      let k ← vget s.2 el
      let p ← vget (List.ofFn fun j : Fin n => prodDims n j) j
      let key ← vset s.2 el (wrap (k + smul p indx))
      return (xbase, key) : Cxx (List F × List Nat))) n (List.ofFn base, key) (by
        refine ⟨by simp, ?_⟩
        simp only [Finset.range_zero, Finset.sum_empty]
        rw [← List.getElem_eq_iff hel] at he
        conv_rhs => rw [← he]
        simp) (by
    intro k s hk ⟨h1, h2⟩
    obtain ⟨s1, s2⟩ := s
    simp only at h1 h2
    subst h1 h2
    refine ⟨(List.ofFn (Function.update (fun j : Fin n => if (j : Nat) < k then base j + (axisIndex fact (x j) (base j) : F) / fact else base j)
        ⟨k, hk⟩ (base ⟨k, hk⟩ + (axisIndex fact (x ⟨k, hk⟩) (base ⟨k, hk⟩) : F) / fact)),
      (key.set el (∑ j ∈ Finset.range k, g j)).set el
        (wrap (∑ j ∈ Finset.range k, g j + smul (prodDims n k) (axisIndex fact (x ⟨k, hk⟩) (base ⟨k, hk⟩))))), ?_, ?_, ?_⟩
    · simp only [vget_ofFn _ _ hk, vset_ofFn _ _ hk, bind, Except.bind, pure, Except.pure]
      rw [vget_ok (by simpa using hel)]
      simp only [Nat.lt_irrefl, if_false, List.getElem_set_self]
      rw [vset_ok (by simpa using hel)]
    · simp only
      congr 1
      funext j
      rw [Function.update_apply]
      by_cases hj : j = ⟨k, hk⟩
      · subst hj; simp
      · have h' : (j : Nat) ≠ k := fun e => hj (Fin.ext e)
        rw [if_neg hj]
        by_cases h2 : (j : Nat) < k
        · rw [if_pos h2, if_pos (by omega)]
        · rw [if_neg h2, if_neg (by omega)]
    · simp only [List.set_set]
      congr 1
      rw [Finset.sum_range_succ]
      have hg : g k = prodDims n k * axisIndex fact (x ⟨k, hk⟩) (base ⟨k, hk⟩) := by simp [g, hk]
      have hle : ∑ j ∈ Finset.range k, g j + g k ≤ ∑ j ∈ Finset.range n, g j := by
        rw [← Finset.sum_range_succ]
        exact Finset.sum_le_sum_of_subset (Finset.range_subset_range.2 hk)
      unfold smul wrap
      rw [← hg, Nat.mod_eq_of_lt (a := g k) (by omega), Nat.mod_eq_of_lt (by omega)])
  rw [e1]
  obtain ⟨s1, s2⟩ := s
  simp only at e2 e3
  rw [e2, e3, htot]
  congr 2
  congr 1
  funext j
  rw [if_pos j.2]

/-- The levels of `getKey`. -/
theorem levels_ok [HasFloor F] {a b : Fin n → F} {L : Nat} {t : RTree F} (h : Rep n a b L t) (hn : n < 64) (x : Fin n → F) :
    ∀ (m el : Nat) (base : Fin n → F) (pre : List Nat), pre.length = el → ∃ base',
      (forFrom el m (List.ofFn base, pre ++ List.replicate m 0) fun el s => (
        forN t.ndims s fun j s => (do
          let xj ← vget (List.ofFn x) j
          let bj ← vget s.1 j
          let indx := axisIndex (two_pow (el + 1) : F) xj bj
          let xbase ← vset s.1 j (bj + (indx : F) / (two_pow (el + 1) : F))
          let k ← vget s.2 el
          let p ← vget t.prodDims j
          let key ← vset s.2 el (wrap (k + smul p indx))
          return (xbase, key) : Cxx (List F × List Nat)))) = .ok (base', pre ++ keyFrom x m el base)
  | 0, el, base, pre, _ => ⟨List.ofFn base, by simp [forFrom, keyFrom]⟩
  | m + 1, el, base, pre, hp => by
    obtain ⟨base', e⟩ := levels_ok h hn x m (el + 1)
      (fun j => base j + (axisIndex (two_pow (el + 1) : F) (x j) (base j) : F) / (two_pow (el + 1) : F))
      (pre ++ [∑ j : Fin n, prodDims n j * axisIndex (two_pow (el + 1) : F) (x j) (base j)]) (by simp [hp])
    refine ⟨base', ?_⟩
    rw [forFrom, level_ok h hn x base el _ (by simp [← hp]) _]
    simp only
    have hs : (pre ++ List.replicate (m + 1) 0).set el (∑ j : Fin n, prodDims n j * axisIndex (two_pow (el + 1) : F) (x j) (base j)) =
        pre ++ [∑ j : Fin n, prodDims n j * axisIndex (two_pow (el + 1) : F) (x j) (base j)] ++ List.replicate m 0 := by
      rw [List.set_append_right _ _ (by omega), hp, Nat.sub_self, List.replicate_succ, List.set_cons_zero]
      simp
    rw [hs, e, keyFrom]
    simp

/-- The numbers of the memory from entry `off` on. -/
def pointOf (n : Nat) (mem : List F) (off : Nat) : Fin n → F := fun j => mem.getD (off + j) 0

theorem getKey_raw [HasFloor F] {a b : Fin n → F} {L : Nat} {t : RTree F} (h : Rep n a b L t) (hn : n < 64) (mem : List F) (off lev : Nat)
    (hm : off + n ≤ mem.length) : t.getKey mem off lev = .ok (getKey a b (pointOf n mem off) lev) := by
  unfold RTree.getKey
  simp only [h.ndims]
  rw [if_neg (by omega)]
  have hx : (mem.drop off).take n = List.ofFn (pointOf n mem off) := by
    apply List.ext_getElem
    · simp; omega
    · intro k h1 h2
      simp only [List.length_ofFn] at h2
      simp [pointOf, List.getElem?_eq_getElem (show off + k < mem.length by omega)]
  have hnorm := forN_entries (fun w => List.ofFn w) (fun j _ => normalise a b (pointOf n mem off) j) (fun j x => (do
    let a ← vget t.xmins j
    let b ← vget t.xmaxs j
    let p ← vget mem (off + j)
    vset x j (cmin 1 (cmax 0 ((p - a) / (b - a)))) : Cxx (List F))) (by
      intro j w
      rw [h.xmins, h.xmaxs]
      have hj := j.2
      simp only [vget_ofFn _ _ j.2, vset_ofFn _ _ j.2, bind, Except.bind, vget_ok (show off + (j : Nat) < mem.length by omega)]
      simp [normalise, pointOf, List.getElem?_eq_getElem (show off + (j : Nat) < mem.length by omega)]) (pointOf n mem off)
  rw [hx]
  simp only [bind, Except.bind, pure, Except.pure] at hnorm ⊢
  rw [hnorm]
  obtain ⟨base', e⟩ := levels_ok h hn (normalise a b (pointOf n mem off)) lev 0 (fun _ => 0) [] rfl
  simp only [List.nil_append, h.ndims, bind, Except.bind, pure, Except.pure] at e
  simp only [replicate_ofFn (n := n)]
  unfold forN at e ⊢
  rw [e]
  rfl

theorem getKey_short [HasFloor F] {a b : Fin n → F} {L : Nat} {t : RTree F} (h : Rep n a b L t) (mem : List F) (off lev : Nat)
    (hm : mem.length < off + n) : t.getKey mem off lev = .error .outOfBounds := by
  unfold RTree.getKey
  rw [h.ndims, if_pos hm]
  rfl

end Sg.Octree
