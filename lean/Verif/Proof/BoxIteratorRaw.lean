import Verif.Model.BoxIteratorRaw
import Verif.Proof.BoxIterator
import Verif.Proof.Loops
import Verif.Proof.FindPointRaw
/- The loops of the box iterator on vectors and the recursions on lists. -/
namespace Sg

/-- Loop rule when round `k` goes well exactly if `C k` and fails with `e0` otherwise. -/
theorem forFrom_cond {σ : Type} (P : Nat → σ → Prop) (C : Nat → Prop) (e0 : UB) (f : Nat → σ → Cxx σ) :
    ∀ (n start : Nat) (s : σ), P start s →
      (∀ k s, start ≤ k → k < start + n → P k s → (C k ∧ ∃ s', f k s = .ok s' ∧ P (k + 1) s') ∨ (¬ C k ∧ f k s = .error e0)) →
      ((∀ k, start ≤ k → k < start + n → C k) ∧ ∃ s', forFrom start n s f = .ok s' ∧ P (start + n) s') ∨
      ((∃ k, start ≤ k ∧ k < start + n ∧ ¬ C k) ∧ forFrom start n s f = .error e0)
  | 0, start, s, h0, _ => .inl ⟨fun k h h' => by omega, s, rfl, h0⟩
  | n + 1, start, s, h0, hs => by
    rcases hs start s (Nat.le_refl _) (by omega) h0 with ⟨hc, s', e, hP⟩ | ⟨hc, e⟩
    · have ih := forFrom_cond P C e0 f n (start + 1) s' hP fun k s a b => hs k s (by omega) (by omega)
      have e' : forFrom start (n + 1) s f = forFrom (start + 1) n s' f := by simp only [forFrom, e]
      rw [e', show start + (n + 1) = start + 1 + n by omega]
      rcases ih with ⟨h1, h2⟩ | ⟨⟨k, h1, h2, h3⟩, h4⟩
      · refine .inl ⟨fun k a b => ?_, h2⟩
        rcases Nat.eq_or_lt_of_le a with rfl | a
        · exact hc
        · exact h1 k a b
      · exact .inr ⟨⟨k, by omega, h2, h3⟩, h4⟩
    · exact .inr ⟨⟨start, Nat.le_refl _, by omega, hc⟩, by simp only [forFrom, e]⟩

theorem forN_cond {σ : Type} (P : Nat → σ → Prop) (C : Nat → Prop) (e0 : UB) (f : Nat → σ → Cxx σ) (n : Nat) (s : σ) (h0 : P 0 s)
    (hs : ∀ k s, k < n → P k s → (C k ∧ ∃ s', f k s = .ok s' ∧ P (k + 1) s') ∨ (¬ C k ∧ f k s = .error e0)) :
    ((∀ k < n, C k) ∧ ∃ s', forN n s f = .ok s' ∧ P n s') ∨ ((∃ k < n, ¬ C k) ∧ forN n s f = .error e0) := by
  rcases forFrom_cond P C e0 f n 0 s h0 fun k s _ b => hs k s (by omega) with ⟨h1, h2⟩ | ⟨⟨k, _, h1, h2⟩, h3⟩
  · exact .inl ⟨fun k hk => h1 k (by omega) (by omega), by simpa [forN] using h2⟩
  · exact .inr ⟨⟨k, by omega, h2⟩, h3⟩

end Sg

namespace Sg.BoxIterator
open Sg.FindPoint

/-! ### The recursions of the constructor -/

theorem mkDims_cond : ∀ axes : List (Int × Int),
    ((∀ ax ∈ axes, inI32 (ax.2 - ax.1)) ∧ mkDims axes = .ok (axes.map fun ax => ax.2 - ax.1)) ∨
    ((∃ ax ∈ axes, ¬ inI32 (ax.2 - ax.1)) ∧ mkDims axes = .error .signedOverflow)
  | [] => .inl ⟨by simp, rfl⟩
  | (b, e) :: axes => by
    by_cases h : inI32 (e - b)
    · have h' : isub e b = .ok (e - b) := by unfold isub chk; rw [if_pos h]
      rcases mkDims_cond axes with ⟨h1, h2⟩ | ⟨⟨ax, h1, h2⟩, h3⟩
      · refine .inl ⟨?_, by simp only [mkDims, h', h2, bind, Except.bind]; rfl⟩
        intro ax hax
        rcases List.mem_cons.1 hax with rfl | hax
        · exact h
        · exact h1 ax hax
      · exact .inr ⟨⟨ax, by simp [h1], h2⟩, by simp only [mkDims, h', h3, bind, Except.bind]⟩
    · refine .inr ⟨⟨(b, e), by simp, h⟩, ?_⟩
      have h' : isub e b = .error .signedOverflow := by unfold isub chk; rw [if_neg h]
      simp only [mkDims, h', bind, Except.bind]

theorem mkNumElems_cond : ∀ (ds : List Int) (acc : Int),
    ((∀ k < ds.length, inI32 (acc * (ds.take (k + 1)).prod)) ∧ mkNumElems acc ds = .ok (acc * ds.prod)) ∨
    ((∃ k < ds.length, ¬ inI32 (acc * (ds.take (k + 1)).prod)) ∧ mkNumElems acc ds = .error .signedOverflow)
  | [], acc => .inl ⟨by simp, by simp [mkNumElems]⟩
  | d :: ds, acc => by
    by_cases h : inI32 (acc * d)
    · have h' : imul acc d = .ok (acc * d) := by unfold imul chk; rw [if_pos h]
      have e : mkNumElems acc (d :: ds) = mkNumElems (acc * d) ds := by simp only [mkNumElems, h', bind, Except.bind]
      rw [e]
      rcases mkNumElems_cond ds (acc * d) with ⟨h1, h2⟩ | ⟨⟨k, h1, h2⟩, h3⟩
      · refine .inl ⟨?_, by rw [h2, List.prod_cons, mul_assoc]⟩
        intro k hk
        cases k with
        | zero => simpa using h
        | succ k =>
          have := h1 k (by simpa using hk)
          rw [List.take_succ_cons, List.prod_cons, ← mul_assoc]
          exact this
      · refine .inr ⟨⟨k + 1, by simpa using h1, ?_⟩, h3⟩
        rw [List.take_succ_cons, List.prod_cons, ← mul_assoc]
        exact h2
    · refine .inr ⟨⟨0, by simp, by simpa using h⟩, ?_⟩
      have h' : imul acc d = .error .signedOverflow := by unfold imul chk; rw [if_neg h]
      simp only [mkNumElems, h', bind, Except.bind]

theorem mkDimProd_cond : ∀ ds : List Int,
    ((∀ k, k + 1 < ds.length → inI32 (ds.drop (k + 1)).prod) ∧ mkDimProd ds = .ok (strides ds)) ∨
    ((∃ k, k + 1 < ds.length ∧ ¬ inI32 (ds.drop (k + 1)).prod) ∧ mkDimProd ds = .error .signedOverflow)
  | [] => .inl ⟨by simp, rfl⟩
  | [d] => .inl ⟨by simp, by simp [mkDimProd, strides]⟩
  | d :: d1 :: ds => by
    rcases mkDimProd_cond (d1 :: ds) with ⟨h1, h2⟩ | ⟨⟨k, h1, h2⟩, h3⟩
    · have hv : vget (strides (d1 :: ds)) 0 = .ok ds.prod := rfl
      by_cases h : inI32 (d1 :: ds).prod
      · have h' : imul ds.prod d1 = .ok (d1 :: ds).prod := by
          rw [List.prod_cons, mul_comm] at h
          unfold imul chk; rw [if_pos h, List.prod_cons, mul_comm]
        refine .inl ⟨?_, by simp only [mkDimProd, h2, hv, h', bind, Except.bind]; rfl⟩
        intro k hk
        cases k with
        | zero => simpa using h
        | succ k => exact h1 k (by simpa using hk)
      · refine .inr ⟨⟨0, by simp, by simpa using h⟩, ?_⟩
        have h' : imul ds.prod d1 = .error .signedOverflow := by
          rw [List.prod_cons, mul_comm] at h
          unfold imul chk; rw [if_neg h]
        simp only [mkDimProd, h2, hv, h', bind, Except.bind]
    · exact .inr ⟨⟨k + 1, by simpa using h1, h2⟩, by simp only [mkDimProd, h3, bind, Except.bind]⟩

theorem strides_get : ∀ (ds : List Int) (k : Nat), k < ds.length → (strides ds)[k]? = some (ds.drop (k + 1)).prod
  | d :: ds, 0, _ => rfl
  | d :: ds, k + 1, h => by
    show (strides ds)[k]? = _
    rw [strides_get ds k (by simpa using h)]; rfl

theorem strides_length : ∀ ds : List Int, (strides ds).length = ds.length
  | [] => rfl
  | _ :: ds => by simp [strides, strides_length ds]

/-! ### The loops of the constructor -/

/-- What the first loop has done after `k` rounds. -/
structure Filled (axes : List (Int × Int)) (k : Nat) (b : Box) : Prop where
  l1 : b.lowEnd.length = axes.length
  l2 : b.dims.length = axes.length
  l3 : b.dimProd.length = axes.length
  low : ∀ i < k, b.lowEnd[i]? = (axes.map (·.1))[i]?
  dims : ∀ i < k, b.dims[i]? = (axes.map fun ax => ax.2 - ax.1)[i]?
  one : ∀ i < k, b.dimProd[i]? = some 1
  num : b.numElems = ((axes.map fun ax => ax.2 - ax.1).take k).prod

theorem get_set {α : Type} {l : List α} {i j : Nat} {a : α} (hi : i < l.length) (hj : j < i + 1) {o : Option α}
    (h1 : j < i → l[j]? = o) (h2 : j = i → o = some a) : (l.set i a)[j]? = o := by
  rcases Nat.lt_or_ge j i with h | h
  · rw [List.getElem?_set_ne (by omega)]; exact h1 h
  · have : j = i := by omega
    subst this
    rw [List.getElem?_set_self hi, h2 rfl]

theorem fill_cond (axes : List (Int × Int)) {beg end' : List Int} (hb : ∀ i (h : i < axes.length), beg[i]? = some axes[i].1)
    (he : ∀ i (h : i < axes.length), end'[i]? = some axes[i].2) (k : Nat) (b : Box) (hk : k < axes.length) (hP : Filled axes k b) :
    ((inI32 (axes[k].2 - axes[k].1) ∧ inI32 ((axes.map fun ax => ax.2 - ax.1).take (k + 1)).prod) ∧
      ∃ b', fillRound beg end' k b = .ok b' ∧ Filled axes (k + 1) b') ∨
    (¬ (inI32 (axes[k].2 - axes[k].1) ∧ inI32 ((axes.map fun ax => ax.2 - ax.1).take (k + 1)).prod) ∧
      fillRound beg end' k b = .error .signedOverflow) := by
  have v1 : vget beg k = .ok axes[k].1 := vget_eq_ok.2 (hb k hk)
  have v2 : vget end' k = .ok axes[k].2 := vget_eq_ok.2 (he k hk)
  have s1 : ∀ x, vset b.lowEnd k x = .ok (b.lowEnd.set k x) := fun x => vset_ok (by rw [hP.l1]; exact hk)
  have s2 : ∀ x, vset b.dims k x = .ok (b.dims.set k x) := fun x => vset_ok (by rw [hP.l2]; exact hk)
  have s3 : ∀ x, vset b.dimProd k x = .ok (b.dimProd.set k x) := fun x => vset_ok (by rw [hP.l3]; exact hk)
  have hd : (axes.map fun ax => ax.2 - ax.1)[k]? = some (axes[k].2 - axes[k].1) := by simp [hk]
  have hprod : ((axes.map fun ax => ax.2 - ax.1).take (k + 1)).prod = b.numElems * (axes[k].2 - axes[k].1) := by
    rw [hP.num, List.take_add_one, hd]; simp
  have v3 : vget (b.dims.set k (axes[k].2 - axes[k].1)) k = .ok (axes[k].2 - axes[k].1) :=
    vget_eq_ok.2 (List.getElem?_set_self (by rw [hP.l2]; exact hk))
  rw [hprod]
  unfold fillRound
  by_cases h1 : inI32 (axes[k].2 - axes[k].1)
  · have i1 : isub axes[k].2 axes[k].1 = .ok (axes[k].2 - axes[k].1) := by unfold isub chk; rw [if_pos h1]
    simp only [v1, v2, s1, s2, s3, i1, v3, bind, Except.bind]
    by_cases h2 : inI32 (b.numElems * (axes[k].2 - axes[k].1))
    · have i2 : imul b.numElems (axes[k].2 - axes[k].1) = .ok (b.numElems * (axes[k].2 - axes[k].1)) := by unfold imul chk; rw [if_pos h2]
      rw [i2]
      refine .inl ⟨⟨h1, h2⟩, _, rfl, ?_⟩
      refine ⟨by simp [hP.l1], by simp [hP.l2], by simp [hP.l3], fun i hi => ?_, fun i hi => ?_, fun i hi => ?_, hprod.symm⟩
      · exact get_set (by rw [hP.l1]; exact hk) hi (hP.low i) (by rintro rfl; simp [hk])
      · exact get_set (by rw [hP.l2]; exact hk) hi (hP.dims i) (by rintro rfl; exact hd)
      · exact get_set (by rw [hP.l3]; exact hk) hi (hP.one i) (fun _ => rfl)
    · have i2 : imul b.numElems (axes[k].2 - axes[k].1) = .error .signedOverflow := by unfold imul chk; rw [if_neg h2]
      rw [i2]
      exact .inr ⟨fun h => h2 h.2, rfl⟩
  · have i1 : isub axes[k].2 axes[k].1 = .error .signedOverflow := by unfold isub chk; rw [if_neg h1]
    simp only [v1, v2, s1, i1, bind, Except.bind]
    exact .inr ⟨fun h => h1 h.1, trivial⟩

/-- What the second loop has done when the entries from `j` on are final. -/
structure Multiplied (ds : List Int) (b0 : Box) (j : Nat) (b : Box) : Prop where
  same : b.lowEnd = b0.lowEnd ∧ b.dims = ds ∧ b.numElems = b0.numElems
  len : b.dimProd.length = ds.length
  done : ∀ i, j ≤ i → i < ds.length → b.dimProd[i]? = some (ds.drop (i + 1)).prod

theorem prod_cond {ds : List Int} {b0 : Box} (j : Nat) (b : Box) (hj : j + 1 < ds.length) (hP : Multiplied ds b0 (j + 1) b) :
    (inI32 (ds.drop (j + 1)).prod ∧ ∃ b', prodRound j b = .ok b' ∧ Multiplied ds b0 j b') ∨
    (¬ inI32 (ds.drop (j + 1)).prod ∧ prodRound j b = .error .signedOverflow) := by
  have v1 : vget b.dimProd (j + 1) = .ok (ds.drop (j + 2)).prod := vget_eq_ok.2 (hP.done (j + 1) (Nat.le_refl _) hj)
  have v2 : vget b.dims (j + 1) = .ok ds[j + 1] := by rw [hP.same.2.1]; exact vget_ok hj
  have hpr : (ds.drop (j + 1)).prod = (ds.drop (j + 2)).prod * ds[j + 1] := by
    rw [List.drop_eq_getElem_cons hj, List.prod_cons, mul_comm]
  unfold prodRound
  rw [hpr]
  by_cases h : inI32 ((ds.drop (j + 2)).prod * ds[j + 1])
  · have i1 : imul (ds.drop (j + 2)).prod ds[j + 1] = .ok ((ds.drop (j + 2)).prod * ds[j + 1]) := by unfold imul chk; rw [if_pos h]
    have s1 : ∀ x, vset b.dimProd j x = .ok (b.dimProd.set j x) := fun x => vset_ok (by rw [hP.len]; omega)
    simp only [v1, v2, i1, s1, bind, Except.bind]
    refine .inl ⟨h, _, rfl, hP.same, by simp [hP.len], fun i hi hi' => ?_⟩
    rcases Nat.eq_or_lt_of_le hi with rfl | hi
    · show (b.dimProd.set j _)[j]? = _
      rw [List.getElem?_set_self (by rw [hP.len]; omega), hpr]
    · show (b.dimProd.set j _)[i]? = _
      rw [List.getElem?_set_ne (by omega)]
      exact hP.done i hi hi'
  · have i1 : imul (ds.drop (j + 2)).prod ds[j + 1] = .error .signedOverflow := by unfold imul chk; rw [if_neg h]
    simp only [v1, v2, i1, bind, Except.bind]
    exact .inr ⟨h, trivial⟩

/-- The constructor with vectors and memory is the one with lists. -/
theorem newRaw_eq (axes : List (Int × Int)) (hn : axes.length ≤ 2147483647) {beg end' : List Int}
    (hb : ∀ i (h : i < axes.length), beg[i]? = some axes[i].1) (he : ∀ i (h : i < axes.length), end'[i]? = some axes[i].2) :
    newRaw axes.length beg end' = lift' (BoxIterator.new axes) := by
  set n := axes.length with hn'
  set ds := axes.map fun ax => ax.2 - ax.1 with hds
  have hdl : ds.length = n := by simp [hds, hn']
  have r0 : resize [] (toSize (n : Int)) (0 : Int) = .ok (List.replicate n 0) := by
    rw [toSize_nat (by omega), resize_ok (by omega)]; simp [rsz]
  unfold newRaw
  simp only [r0, bind, Except.bind]
  show lift' (do
    let b ← forN n ({ lowEnd := List.replicate n 0, dims := List.replicate n 0, dimProd := List.replicate n 0, numElems := 1 } : Box) (fillRound beg end')
    forN ((n : Int) - 1).toNat b fun k b => prodRound (((n : Int) - 1).toNat - 1 - k) b) = _
  have hm : ((n : Int) - 1).toNat = n - 1 := by omega
  rw [hm]
  have hmem : ∀ ax ∈ axes, ∃ k, ∃ h : k < axes.length, axes[k] = ax := fun ax hax => List.getElem_of_mem hax
  rcases forN_cond (Filled axes) (fun k => (∃ h : k < axes.length, inI32 (axes[k].2 - axes[k].1)) ∧ inI32 (ds.take (k + 1)).prod)
      .signedOverflow (fillRound beg end') n
      { lowEnd := List.replicate n 0, dims := List.replicate n 0, dimProd := List.replicate n 0, numElems := 1 }
      ⟨by simp [hn'], by simp [hn'], by simp [hn'], fun i hi => by omega, fun i hi => by omega,
      fun i hi => by omega, by simp⟩ (fun k b hk hP => by
        rcases fill_cond axes hb he k b hk hP with ⟨⟨h1, h2⟩, h3⟩ | ⟨h1, h2⟩
        · exact .inl ⟨⟨⟨hk, h1⟩, h2⟩, h3⟩
        · exact .inr ⟨fun h => h1 ⟨h.1.2, h.2⟩, h2⟩) with ⟨hc, b, e, hP⟩ | ⟨⟨k, hk, hc⟩, e⟩
  · -- the first loop goes well
    have d1 : mkDims axes = .ok ds := by
      rcases mkDims_cond axes with ⟨_, h⟩ | ⟨⟨ax, hax, h⟩, _⟩
      · exact h
      · obtain ⟨k, hk, rfl⟩ := hmem ax hax
        exact absurd (hc k hk).1.2 h
    have d2 : mkNumElems 1 ds = .ok ds.prod := by
      rcases mkNumElems_cond ds 1 with ⟨_, h⟩ | ⟨⟨k, hk, h⟩, _⟩
      · rw [h, one_mul]
      · rw [one_mul] at h
        exact absurd (hc k (by omega)).2 h
    have hbl : b.lowEnd = axes.map (·.1) := List.ext_getElem? fun i => by
      rcases Nat.lt_or_ge i n with h | h
      · exact hP.low i h
      · rw [List.getElem?_eq_none (by rw [hP.l1]; exact h), List.getElem?_eq_none (by simpa using h)]
    have hbd : b.dims = ds := List.ext_getElem? fun i => by
      rcases Nat.lt_or_ge i n with h | h
      · exact hP.dims i h
      · rw [List.getElem?_eq_none (by rw [hP.l2]; exact h), List.getElem?_eq_none (by rw [hdl]; exact h)]
    have hbn : b.numElems = ds.prod := by
      rw [hP.num, List.take_of_length_le (by rw [hdl])]
    unfold BoxIterator.new
    simp only [e, d1, d2, bind, Except.bind]
    rcases forN_cond (fun k b' => Multiplied ds b (n - 1 - k) b') (fun k => inI32 (ds.drop (n - 1 - 1 - k + 1)).prod) .signedOverflow
      (fun k b => prodRound (n - 1 - 1 - k) b) (n - 1) b ⟨⟨rfl, hbd, rfl⟩, by rw [hP.l3, hdl], fun i hi hi' => by
        have : i + 1 = ds.length := by omega
        rw [hP.one i (by omega), this, List.drop_length]; rfl⟩ (fun k b' hk hP' => by
        have hP'' : Multiplied ds b (n - 1 - 1 - k + 1) b' := by
          rwa [show n - 1 - 1 - k + 1 = n - 1 - k by omega]
        rcases prod_cond (n - 1 - 1 - k) b' (by omega) hP'' with ⟨h1, b2, h2, h3⟩ | h
        · exact .inl ⟨h1, b2, h2, by rwa [show n - 1 - (k + 1) = n - 1 - 1 - k by omega]⟩
        · exact .inr h) with ⟨hc2, b2, e2, hP2⟩ | ⟨⟨k, hk, hc2⟩, e2⟩
    · rw [e2]
      have d3 : mkDimProd ds = .ok (strides ds) := by
        rcases mkDimProd_cond ds with ⟨_, h⟩ | ⟨⟨k, hk, h⟩, _⟩
        · exact h
        · have := hc2 (n - 2 - k) (by omega)
          rw [show n - 1 - 1 - (n - 2 - k) = k by omega] at this
          exact absurd this h
      rw [d3]
      have h1 : b2.dimProd = strides ds := List.ext_getElem? fun i => by
        rcases Nat.lt_or_ge i n with h | h
        · rw [hP2.done i (by omega) (by omega), strides_get ds i (by omega)]
        · rw [List.getElem?_eq_none (by rw [hP2.len, hdl]; exact h), List.getElem?_eq_none (by rw [strides_length, hdl]; exact h)]
      obtain ⟨a1, a2, a3⟩ := hP2.same
      obtain ⟨x1, x2, x3, x4⟩ := b2
      simp only at h1 a1 a2 a3
      subst h1 a1 a2 a3
      rw [hbl, hbn]
      rfl
    · rw [e2]
      have d3 : mkDimProd ds = .error .signedOverflow := by
        rcases mkDimProd_cond ds with ⟨h, _⟩ | ⟨_, h⟩
        · exact absurd (h (n - 1 - 1 - k) (by omega)) hc2
        · exact h
      rw [d3]
  · -- overflow in the first loop
    have e' : BoxIterator.new axes = .error .signedOverflow := by
      unfold BoxIterator.new
      rcases mkDims_cond axes with ⟨h1, h2⟩ | ⟨_, h2⟩
      · rcases mkNumElems_cond ds 1 with ⟨h3, _⟩ | ⟨_, h4⟩
        · exfalso
          refine hc ⟨⟨hk, h1 _ (List.getElem_mem _)⟩, ?_⟩
          have := h3 k (by omega)
          rwa [one_mul] at this
        · rw [h2]
          show (do
            let num ← mkNumElems 1 ds
            let ps ← mkDimProd ds
            return { lowEnd := axes.map (·.1), dims := ds, dimProd := ps, numElems := num } : Cxx Box) = _
          rw [h4]; rfl
      · rw [h2]; rfl
    rw [e', e]
    rfl

/-! ### The two queries -/

theorem getIndexRaw_from (b : Box) (h1 : b.lowEnd.length = b.dims.length) (h3 : b.dimProd.length = b.dims.length) (xs : List Int) :
    ∀ (m k : Nat) (acc : Int), k + m = b.dims.length →
      forFrom k m acc (fun i index => do
        let x ← vget xs i
        let l ← vget b.lowEnd i
        let k ← isub x l
        let p ← vget b.dimProd i
        let t ← imul k p
        iadd index t) = getIndexLoop acc (b.lowEnd.drop k) (b.dimProd.drop k) (xs.drop k)
  | 0, k, acc, hk => by
    rw [List.drop_of_length_le (show b.lowEnd.length ≤ k by omega)]
    simp [forFrom, getIndexLoop]
  | m + 1, k, acc, hk => by
    have hl : k < b.lowEnd.length := by omega
    have hp : k < b.dimProd.length := by omega
    rw [List.drop_eq_getElem_cons hl, List.drop_eq_getElem_cons hp]
    have ih := fun acc => getIndexRaw_from b h1 h3 xs m (k + 1) acc (by omega)
    rcases Nat.lt_or_ge k xs.length with hx | hx
    · rw [List.drop_eq_getElem_cons hx]
      simp only [forFrom, vget_ok hl, vget_ok hp, vget_ok hx, getIndexLoop, bind, Except.bind]
      cases isub xs[k] b.lowEnd[k] with
      | error e => rfl
      | ok v =>
        dsimp only
        cases imul v b.dimProd[k] with
        | error e => rfl
        | ok t =>
          dsimp only
          cases iadd acc t with
          | error e => rfl
          | ok a => exact ih a
    · rw [List.drop_of_length_le hx]
      have : vget xs k = .error .outOfBounds := by unfold vget; rw [List.getElem?_eq_none hx]
      simp only [forFrom, this, getIndexLoop, bind, Except.bind]

theorem getElementRaw_from (b : Box) (h1 : b.lowEnd.length = b.dims.length) (h3 : b.dimProd.length = b.dims.length) (index : Int) :
    ∀ (m k : Nat) (inds : List Int), k + m = b.dims.length → b.dims.length ≤ inds.length →
      forFrom k m inds (fun i inds => do
        let l ← vget b.lowEnd i
        let p ← vget b.dimProd i
        let q ← idiv index p
        let d ← vget b.dims i
        let r ← imod q d
        let x ← iadd l r
        vset inds i x) = (getElementLoop index (b.lowEnd.drop k) (b.dims.drop k) (b.dimProd.drop k)).map fun t =>
          inds.take k ++ t ++ inds.drop b.dims.length
  | 0, k, inds, hk, hi => by
    rw [List.drop_of_length_le (show b.lowEnd.length ≤ k by omega)]
    have : k = b.dims.length := by omega
    subst this
    simp [forFrom, getElementLoop, Except.map]
  | m + 1, k, inds, hk, hi => by
    have hl : k < b.lowEnd.length := by omega
    have hp : k < b.dimProd.length := by omega
    have hd : k < b.dims.length := by omega
    rw [List.drop_eq_getElem_cons hl, List.drop_eq_getElem_cons hp, List.drop_eq_getElem_cons hd]
    have ih := fun inds => getElementRaw_from b h1 h3 index m (k + 1) inds (by omega)
    simp only [forFrom, vget_ok hl, vget_ok hp, vget_ok hd, getElementLoop, bind, Except.bind]
    cases idiv index b.dimProd[k] with
    | error e => rfl
    | ok q =>
      dsimp only
      cases imod q b.dims[k] with
      | error e => rfl
      | ok r =>
        dsimp only
        cases iadd b.lowEnd[k] r with
        | error e => rfl
        | ok x =>
          dsimp only
          rw [vset_ok (show k < inds.length by omega)]
          dsimp only
          refine (ih (inds.set k x) (by simpa using hi)).trans ?_
          cases getElementLoop index (b.lowEnd.drop (k + 1)) (b.dims.drop (k + 1)) (b.dimProd.drop (k + 1)) with
          | error e => rfl
          | ok t =>
            simp only [Except.map, pure, Except.pure]
            rw [List.drop_set_of_lt hd, List.take_succ_eq_append_getElem (by simp; omega), List.take_set_of_le (Nat.le_refl _)]
            simp

end Sg.BoxIterator
