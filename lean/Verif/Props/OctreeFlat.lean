import Verif.Model.OctreeFlat
import Verif.Proof.Cxx
import Verif.Props.Octree
/-
Properties C15 and C17: the octree of a flat array of points.
-/
namespace Sg.Props
open Sg Sg.Octree

section
variable {K : Type} [Field K] [LinearOrder K] [IsStrictOrderedRing K] [FloorRing K]

/-- The corners are bounds of the numbers seen so far, and each is the start value or one of the numbers. -/
def BoundsOK {n : Nat} (big : K) (points : List K) (k : Nat) (b : (Fin n → K) × (Fin n → K)) : Prop :=
  ∀ j : Fin n,
    (∀ i < k, i % n = j → ∃ x, points[i]? = some x ∧ b.1 j ≤ x ∧ x ≤ b.2 j) ∧
    (b.1 j = big ∨ ∃ i < k, i % n = j ∧ points[i]? = some (b.1 j)) ∧
    (b.2 j = -big ∨ ∃ i < k, i % n = j ∧ points[i]? = some (b.2 j))

theorem boundsFlat_ok {n : Nat} (hn : n ≠ 0) (big : K) (points : List K) :
    ∃ b, boundsFlat n big points = .ok b ∧ BoundsOK big points points.length b := by
  unfold boundsFlat
  refine forN_inv (fun k b => BoundsOK big points k b) _ _ _ ?_ ?_
  · intro j
    exact ⟨fun i hi => absurd hi (Nat.not_lt_zero _), Or.inl rfl, Or.inl rfl⟩
  · intro k b hk hb
    have hx : points[k]? = some points[k] := List.getElem?_eq_getElem hk
    refine ⟨boundsStep k points[k] b, ?_, ?_⟩
    · simp only [if_neg hn, vget, hx, bind, Except.bind, pure, Except.pure]
    · intro j
      obtain ⟨h1, h2, h3⟩ := hb j
      unfold boundsStep
      dsimp only
      by_cases hj : (j : Nat) = k % n
      · simp only [if_pos hj]
        refine ⟨?_, ?_, ?_⟩
        · intro i hi hij
          rcases Nat.lt_succ_iff_lt_or_eq.1 hi with h | h
          · obtain ⟨x, e, l1, l2⟩ := h1 i h hij
            refine ⟨x, e, ?_, ?_⟩
            · split
              · rename_i h; exact h.le.trans l1
              · exact l1
            · split
              · rename_i h; exact l2.trans h.le
              · exact l2
          · subst h
            refine ⟨_, hx, ?_, ?_⟩
            · split
              · exact le_rfl
              · rename_i h; exact not_lt.1 h
            · split
              · exact le_rfl
              · rename_i h; exact not_lt.1 h
        · split
          · exact Or.inr ⟨k, Nat.lt_succ_self k, hj.symm, hx⟩
          · rcases h2 with h | ⟨i, a, b, c⟩
            · exact Or.inl h
            · exact Or.inr ⟨i, Nat.lt_succ_of_lt a, b, c⟩
        · split
          · exact Or.inr ⟨k, Nat.lt_succ_self k, hj.symm, hx⟩
          · rcases h3 with h | ⟨i, a, b, c⟩
            · exact Or.inl h
            · exact Or.inr ⟨i, Nat.lt_succ_of_lt a, b, c⟩
      · simp only [if_neg hj]
        refine ⟨?_, ?_, ?_⟩
        · intro i hi hij
          rcases Nat.lt_succ_iff_lt_or_eq.1 hi with h | h
          · exact h1 i h hij
          · subst h; exact absurd hij.symm hj
        · rcases h2 with h | ⟨i, a, b, c⟩
          · exact Or.inl h
          · exact Or.inr ⟨i, Nat.lt_succ_of_lt a, b, c⟩
        · rcases h3 with h | ⟨i, a, b, c⟩
          · exact Or.inl h
          · exact Or.inr ⟨i, Nat.lt_succ_of_lt a, b, c⟩

theorem newFlat_ok {n : Nat} (hn : n ≠ 0) (big : K) (nlevs np : Nat) (points : List K) (hl : points.length = np * n) :
    ∃ b keys, BoundsOK (n := n) big points (np * n) b ∧ newFlat n big nlevs points = .ok (build b.1 b.2 nlevs, keys) ∧ keys.length = np ∧
      ∀ i < np, ∃ p : Fin n → K, (∀ j : Fin n, points[i * n + j]? = some (p j)) ∧ keys[i]? = some (i, getKey b.1 b.2 p nlevs) := by
  obtain ⟨b, hb, hok⟩ := boundsFlat_ok hn big points
  rw [hl] at hok
  have hd : points.length / n = np := by rw [hl, Nat.mul_div_cancel _ (Nat.pos_of_ne_zero hn)]
  have hloop := forN_inv (fun k (keys : List (Nat × List Nat)) => keys.length = k ∧
      ∀ i < k, ∃ p : Fin n → K, (∀ j : Fin n, points[i * n + j]? = some (p j)) ∧ keys[i]? = some (i, getKey b.1 b.2 p nlevs))
    (fun i keys => do
      let p ← readPoint n points i
      return keys ++ [(i, (build b.1 b.2 nlevs).node2Key p)]) np [] ⟨rfl, fun i hi => absurd hi (Nat.not_lt_zero _)⟩ (by
    intro k keys hk ⟨h1, h2⟩
    have hle : (k + 1) * n ≤ points.length := by rw [hl]; exact Nat.mul_le_mul_right n hk
    obtain ⟨p, hp, hp'⟩ : ∃ p, readPoint n points k = .ok p ∧ ∀ j : Fin n, points[k * n + j]? = some (p j) := by
      unfold readPoint
      rw [dif_pos hle]
      exact ⟨_, rfl, fun j => List.getElem?_eq_getElem _⟩
    refine ⟨keys ++ [(k, (build b.1 b.2 nlevs).node2Key p)], by simp only [hp, bind, Except.bind, pure, Except.pure], ?_, ?_⟩
    · simp [h1]
    · intro i hi
      rcases Nat.lt_succ_iff_lt_or_eq.1 hi with h | h
      · obtain ⟨p, e1, e2⟩ := h2 i h
        refine ⟨p, e1, ?_⟩
        rw [List.getElem?_append_left (by omega)]
        exact e2
      · subst h
        refine ⟨p, hp', ?_⟩
        rw [List.getElem?_append_right h1.le, h1, Nat.sub_self]
        rfl)
  obtain ⟨keys, e, h1, h2⟩ := hloop
  refine ⟨b, keys, hok, ?_, h1, h2⟩
  unfold newFlat
  rw [hb]
  simp only [bind, Except.bind, pure, Except.pure, if_neg hn, hd] at e ⊢
  rw [e]

theorem newC_ok (big : K) (numLevels ndims npoints : Int) (mem : List K) (h0 : 0 ≤ numLevels) (h1 : 0 < ndims) (h2 : 0 ≤ npoints)
    (hov : npoints * ndims ≤ 2147483647) (hmem : npoints * ndims ≤ mem.length) :
    ∃ b keys, BoundsOK (n := ndims.toNat) big (mem.take (npoints.toNat * ndims.toNat)) (npoints.toNat * ndims.toNat) b ∧
      newC big numLevels ndims npoints mem = .ok (build b.1 b.2 numLevels.toNat, keys) ∧ keys.length = npoints.toNat ∧
      ∀ i < npoints.toNat, ∃ p : Fin ndims.toNat → K, (∀ j : Fin ndims.toNat, mem[i * ndims.toNat + j]? = some (p j)) ∧
        keys[i]? = some (i, getKey b.1 b.2 p numLevels.toNat) := by
  have hm : (npoints * ndims).toNat = npoints.toNat * ndims.toNat := Int.toNat_mul h2 h1.le
  have hnn : 0 ≤ npoints * ndims := mul_nonneg h2 h1.le
  have hlen : npoints.toNat * ndims.toNat ≤ mem.length := by rw [← hm]; omega
  obtain ⟨b, keys, e1, e2, e3, e4⟩ := newFlat_ok (n := ndims.toNat) (by omega) big numLevels.toNat npoints.toNat
    (mem.take (npoints.toNat * ndims.toNat)) (by rw [List.length_take, min_eq_left hlen])
  refine ⟨b, keys, e1, ?_, e3, ?_⟩
  · unfold newC imul chk
    rw [if_pos (show inI32 _ from ⟨by omega, by omega⟩)]
    simp only [bind, Except.bind, hm]
    rw [if_neg (by omega), if_neg (by omega)]
    exact e2
  · intro i hi
    obtain ⟨p, q1, q2⟩ := e4 i hi
    refine ⟨p, fun j => ?_, q2⟩
    have := q1 j
    rw [List.getElem?_take] at this
    split at this
    · exact this
    · cases this

theorem entry_index {n i np : Nat} (j : Fin n) (hi : i < np) : i * n + j < np * n := by
  calc i * n + (j : Nat) < i * n + n := by have := j.2; omega
    _ = (i + 1) * n := by ring
    _ ≤ np * n := Nat.mul_le_mul_right n hi

/-- C15: the C function, given sensible arguments, makes the tree without undefined behaviour.  It records one key per point, in
the order of the points, of as many digits as there are levels, the box of the key is stored in the tree (if there is a level at all)
and contains the point. -/
theorem C15_points (big : K) (numLevels ndims npoints : Int) (mem : List K) (h0 : 0 ≤ numLevels) (h1 : 0 < ndims) (h2 : 0 ≤ npoints)
    (hov : npoints * ndims ≤ 2147483647) (hmem : npoints * ndims ≤ mem.length) :
    ∃ t keys, newC big numLevels ndims npoints mem = .ok (t, keys) ∧ (keys.length : Int) = npoints ∧
      ∀ i < npoints.toNat, ∃ key, keys[i]? = some (i, key) ∧ (key.length : Int) = numLevels ∧
        (0 < numLevels → ∃ b, t.find key = some b) ∧
        ∀ j : Fin ndims.toNat, ∃ x, mem[i * ndims.toNat + j]? = some x ∧ t.getLo key j ≤ x ∧ x ≤ t.getHi key j := by
  obtain ⟨b, keys, e1, e2, e3, e4⟩ := newC_ok big numLevels ndims npoints mem h0 h1 h2 hov hmem
  refine ⟨_, keys, e2, by omega, ?_⟩
  intro i hi
  obtain ⟨p, q1, q2⟩ := e4 i hi
  have hs := C14_key_shape b.1 b.2 p numLevels.toNat
  refine ⟨_, q2, by rw [hs.1]; omega, ?_, ?_⟩
  · intro hp
    rw [C17_stored_keys, hs.1]
    exact ⟨by omega, by omega, hs.2⟩
  · intro j
    refine ⟨p j, q1 j, ?_⟩
    refine C15_box_contains_domain_point b.1 b.2 numLevels.toNat p ?_ numLevels.toNat le_rfl j
    intro j
    have hlt := entry_index j hi
    obtain ⟨x, hx, l1, l2⟩ := (e1 j).1 (i * ndims.toNat + j) hlt (by
      rw [Nat.mul_comm, Nat.mul_add_mod, Nat.mod_eq_of_lt j.2])
    rw [List.getElem?_take, if_pos hlt, q1 j, Option.some.injEq] at hx
    subst hx
    exact ⟨l1, l2⟩

/-- C15: the domain of the tree (the box of the empty key) is the smallest box around the points: along each axis its low and high ends
are coordinates of points. -/
theorem C15_domain_tight (big : K) (numLevels ndims npoints : Int) (mem : List K) (h0 : 0 ≤ numLevels) (h1 : 0 < ndims) (h2 : 0 < npoints)
    (hov : npoints * ndims ≤ 2147483647) (hmem : npoints * ndims ≤ mem.length) (hbig : ∀ x ∈ mem, -big < x ∧ x < big) :
    ∃ t keys, newC big numLevels ndims npoints mem = .ok (t, keys) ∧
      ∀ j : Fin ndims.toNat,
        (∀ i < npoints.toNat, ∃ x, mem[i * ndims.toNat + j]? = some x ∧ t.getLo [] j ≤ x ∧ x ≤ t.getHi [] j) ∧
        (∃ i < npoints.toNat, mem[i * ndims.toNat + j]? = some (t.getLo [] j)) ∧
        (∃ i < npoints.toNat, mem[i * ndims.toNat + j]? = some (t.getHi [] j)) := by
  obtain ⟨b, keys, e1, e2, e3, e4⟩ := newC_ok big numLevels ndims npoints mem h0 h1 h2.le hov hmem
  have hroot := getLoHi_build b.1 b.2 numLevels.toNat [] (Nat.zero_le _) (by simp)
  have hl : (build b.1 b.2 numLevels.toNat).getLo [] = b.1 := by
    rw [hroot.1]; funext j; simp [computeLoHi, loHiFrom]
  have hh : (build b.1 b.2 numLevels.toNat).getHi [] = b.2 := by
    rw [hroot.2]; funext j; simp [computeLoHi, loHiFrom]
  refine ⟨_, keys, e2, ?_⟩
  intro j
  rw [hl, hh]
  have hnpos : 0 < ndims.toNat := by omega
  have back : ∀ k < npoints.toNat * ndims.toNat, k % ndims.toNat = (j : Nat) → k / ndims.toNat < npoints.toNat ∧ (k / ndims.toNat) * ndims.toNat + j = k := by
    intro k hk hkj
    refine ⟨Nat.div_lt_of_lt_mul (by rw [Nat.mul_comm]; exact hk), ?_⟩
    have := Nat.div_add_mod k ndims.toNat
    rw [Nat.mul_comm] at this
    omega
  have hall : ∀ i < npoints.toNat, ∃ x, mem[i * ndims.toNat + j]? = some x ∧ b.1 j ≤ x ∧ x ≤ b.2 j := by
    intro i hi
    have hlt := entry_index j hi
    obtain ⟨x, hx, l⟩ := (e1 j).1 (i * ndims.toNat + j) hlt (by rw [Nat.mul_comm, Nat.mul_add_mod, Nat.mod_eq_of_lt j.2])
    rw [List.getElem?_take, if_pos hlt] at hx
    exact ⟨x, hx, l⟩
  obtain ⟨x, hx, l1, l2⟩ := hall 0 (by omega)
  have hxb := hbig x (List.mem_of_getElem? hx)
  refine ⟨hall, ?_, ?_⟩
  · rcases (e1 j).2.1 with h | ⟨k, hk, hkj, hv⟩
    · exact absurd (h ▸ l1) (not_le.2 hxb.2)
    · obtain ⟨c1, c2⟩ := back k hk hkj
      rw [List.getElem?_take, if_pos hk] at hv
      exact ⟨k / ndims.toNat, c1, by rw [c2]; exact hv⟩
  · rcases (e1 j).2.2 with h | ⟨k, hk, hkj, hv⟩
    · exact absurd (h ▸ l2) (not_le.2 hxb.1)
    · obtain ⟨c1, c2⟩ := back k hk hkj
      rw [List.getElem?_take, if_pos hk] at hv
      exact ⟨k / ndims.toNat, c1, by rw [c2]; exact hv⟩

/-- C15: no dimensions at all is a division by zero. -/
theorem C15_no_axes (big : K) (numLevels npoints : Int) (h0 : 0 ≤ numLevels) (mem : List K) :
    newC big numLevels 0 npoints mem = .error .divByZero := by
  unfold newC imul chk
  rw [mul_zero, if_pos (by unfold inI32; omega)]
  simp only [bind, Except.bind, pure, Except.pure]
  rw [if_neg (by simp), if_neg (by omega)]
  rfl

/-- C15: a memory with fewer numbers than the counts announce is read past its end, and a negative number of points is not a
range. -/
theorem C15_short_memory (big : K) (numLevels ndims npoints : Int) (mem : List K)
    (hov : inI32 (npoints * ndims)) (h : npoints * ndims < 0 ∨ (mem.length : Int) < npoints * ndims) :
    newC big numLevels ndims npoints mem = .error .badPointer := by
  unfold newC imul chk
  rw [if_pos hov]
  simp only [bind, Except.bind, pure, Except.pure]
  rw [if_pos (by omega)]
  rfl

/-- Hypotheses are met: two points in the plane, one more number behind them. -/
example : ∃ t keys, newC (1000 : ℚ) 2 2 2 [0, 1, 3, 7, 99] = .ok (t, keys) ∧ keys = [(0, [0, 0]), (1, [3, 3])] ∧ t.getHi [] = ![3, 7] := by
  refine ⟨_, _, rfl, ?_, ?_⟩ <;> decide +kernel

end
end Sg.Props
