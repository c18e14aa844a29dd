import Verif.Props.GridsRaw
import Verif.Props.Grids
/-
Property C123: the tripolar grid with any `int` counts and any cap index.
-/
namespace Sg.Props
open Sg Sg.Grids Sg.FindPoint Trig

variable {F : Type} [Add F] [Sub F] [Mul F] [Div F] [Neg F] [NatCast F] [IntCast F]

/-- C123: the constructor.  A product of the counts that is no `int`, or zero, is undefined; a negative one throws; otherwise there is
one zero per node: also if both counts are negative. -/
theorem C123_new (rows cols cap : Int) :
    (TripolarR.new [rows, cols] cap : Call' (TripolarR F)) =
      if ¬ inI32 (rows * cols) then .error (.undefined .signedOverflow)
      else if rows * cols = 0 then .error (.undefined .outOfBounds)
      else if rows * cols < 0 then .error .lengthError
      else .ok { dims0 := rows, dims1 := cols, capLatIndex := cap, lats := List.replicate (rows * cols).toNat ((0 : Nat) : F)
                 lons := List.replicate (rows * cols).toNat ((0 : Nat) : F) } := by
  simp only [TripolarR.new, vget, List.getElem?_cons_zero, List.getElem?_cons_succ, bind, Except.bind, lift', imul, chk]
  by_cases h : inI32 (rows * cols)
  · rw [if_pos h, if_neg (not_not.mpr h)]
    simp only
    by_cases z : rows * cols = 0
    · rw [z]; rfl
    · rw [if_neg z]
      by_cases m : rows * cols < 0
      · have := toSize_neg h.1 m
        rw [if_pos m]
        simp only [resize, if_neg (not_le.mpr this)]
      · have e : toSize (rows * cols) = (rows * cols).toNat := by
          have := toSize_of_nonneg (not_lt.mp m) h; omega
        have hp : 1 ≤ (rows * cols).toNat := by omega
        have hl : (rows * cols).toNat ≤ 1152921504606846975 := by unfold inI32 at h; omega
        rw [if_neg m, e]
        simp only [resize, if_pos hl, List.take_nil, List.nil_append, List.length_nil, Nat.sub_zero,
          List.getElem?_replicate, if_pos (show 0 < (rows * cols).toNat by omega)]
        rfl
  · rw [if_neg h, if_pos h]

/-- The object of `Model/Grids`, with `int` members. -/
def toR (t : Tripolar F) : TripolarR F :=
  { dims0 := t.dims0, dims1 := t.dims1, capLatIndex := t.capLatIndex, lats := t.lats, lons := t.lons }

variable [Trig F]

theorem writeNodeR_eq {c : Nat} {i : Nat} {j : Int} {g : Nat → Int → F × F} {p : F × F} (h0 : 0 ≤ j) (hp : p = g i j)
    (h : i + j * c ≤ 2147483647) (s : List F × List F) : writeNodeR c p i j s = writeNode c g i j s := by
  subst hp
  have hj : 0 ≤ j * c := Int.mul_nonneg h0 (by omega)
  simp only [writeNodeR, writeNode, imul, iadd, chk]
  rw [if_pos (show inI32 (j * c) by unfold inI32; omega)]
  simp only [bind, Except.bind]
  rw [if_pos (show inI32 (i + j * c) by unfold inI32; omega)]

theorem index_le {r c j : Int} (i : Nat) (hc : (i : Int) < c) (hj : j < r) (h : r * c ≤ 2147483647) :
    (i : Int) + j * c ≤ 2147483647 := by
  nlinarith [mul_le_mul_of_nonneg_right (show j + 1 ≤ r by omega) (show (0 : Int) ≤ c by omega)]

/-- `getGrid` for positive counts and a cap index among the rows. -/
theorem getGridR_eq (t : Tripolar F) (h0 : 0 ≤ t.capLatIndex) (h1 : t.capLatIndex ≤ t.dims0)
    (hp : 0 < t.dims0 * t.dims1) (hint : t.dims0 * t.dims1 ≤ 2147483647) :
    (toR t).getGrid = t.getGrid.map fun q => ((q.1 : Int), (q.2.1 : Int), toR q.2.2) := by
  obtain ⟨r, c, cap, lats, lons⟩ := t
  simp only at h0 h1 hp hint
  have hr : 1 ≤ r := Nat.pos_of_ne_zero fun h => by simp [h] at hp
  have hc : 1 ≤ c := Nat.pos_of_ne_zero fun h => by simp [h] at hp
  have hr' : r ≤ 2147483647 := le_trans (Nat.le_mul_of_pos_right r hc) hint
  have hc' : c ≤ 2147483647 := le_trans (Nat.le_mul_of_pos_left c hr) hint
  have hi : (r : Int) * c ≤ 2147483647 := by exact_mod_cast hint
  have hdiv : ((c : Int).tdiv 2).toNat = c / 2 := by
    rw [Int.tdiv_eq_ediv_of_nonneg (by omega)]; omega
  have hdiv' : ((c : Int) - (c : Int).tdiv 2).toNat = c - c / 2 := by
    rw [Int.tdiv_eq_ediv_of_nonneg (by omega)]; omega
  have i0 : isub (c : Int) 1 = .ok ((c : Int) - 1) := by unfold isub chk; rw [if_pos]; unfold inI32; omega
  have i1 : isub (r : Int) 1 = .ok ((r : Int) - 1) := by unfold isub chk; rw [if_pos]; unfold inI32; omega
  have i2 : isub (r : Int) cap = .ok ((r : Int) - cap) := by unfold isub chk; rw [if_pos]; unfold inI32; omega
  have i3 : isub ((r : Int) - cap) 1 = .ok ((r : Int) - cap - 1) := by unfold isub chk; rw [if_pos]; unfold inI32; omega
  show ({ dims0 := (r : Int), dims1 := c, capLatIndex := cap, lats := lats, lons := lons } : TripolarR F).getGrid = _
  simp only [TripolarR.getGrid, Tripolar.getGrid, i0, i1, i2, i3, bind, Except.bind, hdiv, hdiv', Int.toNat_natCast]
  rw [forN_congr _ (fun j s => forN c s fun i s => writeNode c (lowerNode c r) i j s) _ _ (by
    intro j s hj
    refine forN_congr _ _ _ _ fun i s hi' => ?_
    exact writeNodeR_eq (j := (j : Int)) (g := lowerNode c r) (by omega) rfl (index_le (r := r) i (by omega) (by omega) hi) s)]
  cases forN cap.toNat (lons, lats) (fun j s => forN c s fun i s => writeNode c (lowerNode c r) i j s) with
  | error e => rfl
  | ok s1 =>
    simp only
    rw [forN_congr _ (fun k s => forN (c / 2) s fun i s => writeNode c (capNodeWest c r cap) i (cap + k) s) _ _ (by
      intro k s hk
      refine forN_congr _ _ _ _ fun i s hi' => ?_
      exact writeNodeR_eq (j := cap + k) (g := capNodeWest c r cap) (by omega) rfl (index_le (r := r) i (by omega) (by omega) hi) s)]
    cases forN ((r : Int) - cap).toNat s1 (fun k s => forN (c / 2) s fun i s => writeNode c (capNodeWest c r cap) i (cap + k) s) with
    | error e => rfl
    | ok s2 =>
      simp only
      rw [forN_congr _ (fun k s => forFrom (c / 2) (c - c / 2) s fun i s => writeNode c (capNodeEast c r cap) i (cap + k) s) _ _ (by
        intro k s hk
        refine forFrom_congr _ _ _ _ _ fun i s hi' hi'' => ?_
        exact writeNodeR_eq (j := cap + k) (g := capNodeEast c r cap) (by omega) rfl (index_le (r := r) i (by omega) (by omega) hi) s)]
      cases forN ((r : Int) - cap).toNat s2
        (fun k s => forFrom (c / 2) (c - c / 2) s fun i s => writeNode c (capNodeEast c r cap) i (cap + k) s) <;> rfl

/-- The constructor followed by `getGrid`: the dimensions written and the object. -/
def makeTripolar (rows cols cap : Int) : Call' (Int × Int × TripolarR F) := do
  let t ← TripolarR.new [rows, cols] cap
  lift' t.getGrid

/-- C123: positive counts whose product is an `int`, and a cap index from zero to the number of rows: the dimensions are reported in the
other order and node `(i, j)` of the arrays is what C27 and C97 describe. -/
theorem C123_positive (rows cols cap : Nat) (hpos : 0 < rows * cols) (hint : rows * cols ≤ 2147483647) (hcap : cap ≤ rows) :
    ∃ t : TripolarR F, makeTripolar rows cols cap = .ok ((cols : Int), (rows : Int), t) ∧
      t.lats.length = rows * cols ∧ t.lons.length = rows * cols ∧
      ∀ i j, i < cols → j < rows →
        t.lons[j * cols + i]? = some (scaled (tripolarNode cols rows cap i j : F × F).1) ∧
        t.lats[j * cols + i]? = some (scaled (tripolarNode cols rows cap i j : F × F).2) := by
  obtain ⟨t, t', h1, h2, h3, h4, h5⟩ := C27_tripolar_fill (F := F) rows cols cap hpos hint hcap
  have hm : (rows : Int) * cols = ((rows * cols : Nat) : Int) := by push_cast; rfl
  have hin : inI32 ((rows : Int) * cols) := by rw [hm]; unfold inI32; omega
  have hnz : ¬ ((rows : Int) * cols = 0) := by rw [hm]; omega
  have hnn : ¬ ((rows : Int) * cols < 0) := by rw [hm]; omega
  have hn : t = { dims0 := rows, dims1 := cols, capLatIndex := cap, lats := List.replicate (rows * cols) ((0 : Nat) : F)
                  lons := List.replicate (rows * cols) ((0 : Nat) : F) } := by
    simp only [Tripolar.new, imul, chk, if_pos hin, bind, Except.bind, if_neg hnz] at h1
    rw [hm] at h1
    exact (Except.ok.inj h1).symm
  refine ⟨toR t', ?_, h3, h4, h5⟩
  have := getGridR_eq t (by rw [hn]; simp only; omega) (by rw [hn]; simp only; omega) (by rw [hn]; exact hpos) (by rw [hn]; exact hint)
  simp only [makeTripolar, bind, Except.bind]
  rw [C123_new, if_neg (not_not.mpr hin), if_neg hnz, if_neg hnn]
  simp only
  rw [h2] at this
  have e : ({ dims0 := (rows : Int), dims1 := cols, capLatIndex := cap, lats := List.replicate ((rows : Int) * cols).toNat ((0 : Nat) : F)
              lons := List.replicate ((rows : Int) * cols).toNat ((0 : Nat) : F) } : TripolarR F) = toR t := by
    rw [hn, hm]; rfl
  rw [e, this]
  rfl

theorem writeNodeR_len {d0 : Int} {p : F × F} {i j : Int} {s s' : List F × List F} (h : writeNodeR d0 p i j s = .ok s') :
    0 ≤ i + j * d0 ∧ i + j * d0 < s.1.length ∧ s'.1.length = s.1.length ∧ s'.2.length = s.2.length := by
  unfold writeNodeR imul iadd chk at h
  by_cases h1 : inI32 (j * d0)
  · simp only [if_pos h1, bind, Except.bind] at h
    by_cases h2 : inI32 (i + j * d0)
    · simp only [if_pos h2, putScaled] at h
      by_cases h3 : 0 ≤ i + j * d0
      · simp only [if_pos h3, vset] at h
        by_cases h4 : (i + j * d0).toNat < s.1.length
        · simp only [if_pos h4] at h
          by_cases h5 : (i + j * d0).toNat < s.2.length
          · simp only [if_pos h5] at h
            cases h
            exact ⟨h3, by omega, by simp, by simp⟩
          · simp only [if_neg h5] at h; cases h
        · simp only [if_neg h4] at h; cases h
      · simp only [if_neg h3] at h; cases h
    · simp only [if_neg h2] at h; cases h
  · simp only [if_neg h1, bind, Except.bind] at h; cases h

/-- A row of nodes that was written, from column `a` on, and is not empty: its first index is one of the array. -/
theorem row_ok {d0 : Int} {p : Nat → F × F} {j : Int} {a n : Nat} {s s' : List F × List F} (hn : 1 ≤ n)
    (h : (forFrom a n s fun i s => writeNodeR d0 (p i) i j s) = .ok s') :
    0 ≤ a + j * d0 ∧ a + j * d0 < s.1.length := by
  obtain ⟨m, rfl⟩ : ∃ m, n = m + 1 := ⟨n - 1, by omega⟩
  simp only [forFrom] at h
  cases hw : writeNodeR d0 (p a) a j s with
  | error e => rw [hw] at h; cases h
  | ok t => exact ⟨(writeNodeR_len hw).1, (writeNodeR_len hw).2.1⟩

theorem row_len {d0 : Int} {p : Nat → F × F} {j : Int} {a n : Nat} {s s' : List F × List F}
    (h : (forFrom a n s fun i s => writeNodeR d0 (p i) i j s) = .ok s') : s'.1.length = s.1.length :=
  forFrom_inv_ok (fun _ (t : List F × List F) => t.1.length = s.1.length) _ n a s s' rfl
    (fun _ _ _ _ _ hP he => (writeNodeR_len he).2.2.1.trans hP) h

/-- `getGrid` for positive counts and a cap index that is not among the rows. -/
theorem getGridR_outside (r c : Nat) (hc : 1 ≤ c) (cap : Int) (h : cap < 0 ∨ (r : Int) < cap) (lats lons : List F)
    (hl : lons.length = r * c) (q : Int × Int × TripolarR F) :
    ({ dims0 := (r : Int), dims1 := c, capLatIndex := cap, lats := lats, lons := lons } : TripolarR F).getGrid ≠ .ok q := by
  intro he
  simp only [TripolarR.getGrid, bind, Except.bind] at he
  cases e0 : isub (c : Int) 1 with
  | error e => simp only [e0] at he; cases he
  | ok m0 =>
  cases e1 : isub (r : Int) 1 with
  | error e => simp only [e0, e1] at he; cases he
  | ok m1 =>
  simp only [e0, e1] at he
  split at he
  · cases he
  · rename_i s1 hs1
    rcases h with h | h
    · -- the rows of the cap begin before the arrays
      cases e2 : isub (r : Int) cap with
      | error e => simp only [e2] at he; cases he
      | ok mc =>
      cases e3 : isub mc 1 with
      | error e => simp only [e2, e3] at he; cases he
      | ok mc' =>
      simp only [e2, e3] at he
      split at he
      · cases he
      · rename_i s2 hs2
        split at he
        · cases he
        · rename_i s3 hs3
          obtain ⟨m, hm⟩ : ∃ m, ((r : Int) - cap).toNat = m + 1 := ⟨((r : Int) - cap).toNat - 1, by omega⟩
          rw [hm] at hs3
          simp only [forN, forFrom] at hs3
          split at hs3
          · rename_i t ht
            have hd : (c : Int).tdiv 2 = ((c / 2 : Nat) : Int) := by rw [Int.tdiv_eq_ediv_of_nonneg (by omega)]; omega
            have := (row_ok (by rw [hd]; omega) ht).1
            rw [hd] at this
            simp only [Int.toNat_natCast, Nat.cast_zero, add_zero] at this
            have h2 : cap * (c : Int) ≤ -1 * c := Int.mul_le_mul_of_nonneg_right (by omega) (by omega)
            omega
          · cases hs3
    · -- row `r` is past the arrays
      have := forN_inv_ok (fun k (s : List F × List F) => s.1.length = r * c ∧ k ≤ r) _ cap.toNat (lons, lats) s1 ⟨hl, by omega⟩
        (by
          rintro k s s' hk ⟨g1, g2⟩ hs
          have hrow := (row_ok (by simpa using hc) hs).2
          refine ⟨(row_len hs).trans g1, ?_⟩
          by_contra hkr
          have : k = r := by omega
          subst this
          rw [g1] at hrow
          simp at hrow)
        hs1
      omega

/-- C123: positive counts whose product is an `int`, and a cap index that is negative or larger than the number of rows: undefined. -/
theorem C123_cap (rows cols : Nat) (cap : Int) (hpos : 0 < rows * cols) (hint : rows * cols ≤ 2147483647)
    (hcap : cap < 0 ∨ (rows : Int) < cap) :
    ∃ u, (makeTripolar rows cols cap : Call' (Int × Int × TripolarR F)) = .error (.undefined u) := by
  have hm : (rows : Int) * cols = ((rows * cols : Nat) : Int) := by push_cast; rfl
  have hin : inI32 ((rows : Int) * cols) := by rw [hm]; unfold inI32; omega
  have hnz : ¬ ((rows : Int) * cols = 0) := by rw [hm]; omega
  have hnn : ¬ ((rows : Int) * cols < 0) := by rw [hm]; omega
  have hc : 1 ≤ cols := Nat.pos_of_ne_zero fun h => by simp [h] at hpos
  simp only [makeTripolar, bind, Except.bind]
  rw [C123_new, if_neg (not_not.mpr hin), if_neg hnz, if_neg hnn]
  simp only
  cases hg : ({ dims0 := (rows : Int), dims1 := cols, capLatIndex := cap
                lats := List.replicate ((rows : Int) * cols).toNat ((0 : Nat) : F)
                lons := List.replicate ((rows : Int) * cols).toNat ((0 : Nat) : F) } : TripolarR F).getGrid with
  | error u => exact ⟨u, rfl⟩
  | ok q => exact absurd hg (getGridR_outside rows cols hc cap hcap _ _ (by rw [List.length_replicate, hm, Int.toNat_natCast]) q)

/-- C123: negative counts whose product is an `int`: no exception and no error; the negative counts are reported and all coordinates are
zero (unless the number of rows above the cap is no `int`). -/
theorem C123_negative_refuted (rows cols cap : Int) (h0 : rows < 0) (h1 : cols < 0) (hint : rows * cols ≤ 2147483647) :
    (makeTripolar rows cols cap : Call' (Int × Int × TripolarR F)) =
      if inI32 (rows - cap) ∧ inI32 (rows - cap - 1) then
        .ok (cols, rows, { dims0 := rows, dims1 := cols, capLatIndex := cap
                           lats := List.replicate (rows * cols).toNat ((0 : Nat) : F)
                           lons := List.replicate (rows * cols).toNat ((0 : Nat) : F) })
      else .error (.undefined .signedOverflow) := by
  have hp : 0 < rows * cols := Int.mul_pos_of_neg_of_neg h0 h1
  have hin : inI32 (rows * cols) := by unfold inI32; omega
  have hr : -2147483647 ≤ rows := by nlinarith
  have hc : -2147483647 ≤ cols := by nlinarith
  have i0 : isub cols 1 = .ok (cols - 1) := by unfold isub chk; rw [if_pos]; unfold inI32; omega
  have i1 : isub rows 1 = .ok (rows - 1) := by unfold isub chk; rw [if_pos]; unfold inI32; omega
  simp only [makeTripolar, bind, Except.bind]
  rw [C123_new, if_neg (not_not.mpr hin), if_neg hp.ne', if_neg (not_lt.mpr hp.le)]
  have t1 : cols.toNat = 0 := by omega
  have hd : cols.tdiv 2 = -((-cols) / 2) := by rw [← Int.tdiv_eq_ediv_of_nonneg (by omega), Int.neg_tdiv, neg_neg]
  have t2 : (cols.tdiv 2).toNat = 0 := by omega
  have t3 : (cols - cols.tdiv 2).toNat = 0 := by omega
  simp only [TripolarR.getGrid, i0, i1, bind, Except.bind, t1, t2, t3]
  have hid : ∀ (n : Nat) (s : List F × List F) (f : Nat → Nat → List F × List F → Cxx (List F × List F)),
      (forN n s fun k s => forN 0 s (f k)) = .ok s := fun n s f => forFrom_id n 0 s
  have hid' : ∀ (n : Nat) (s : List F × List F) (f : Nat → Nat → List F × List F → Cxx (List F × List F)),
      (forN n s fun k s => forFrom 0 0 s (f k)) = .ok s := fun n s f => forFrom_id n 0 s
  simp only [hid, hid']
  by_cases h2 : inI32 (rows - cap)
  · have i2 : isub rows cap = .ok (rows - cap) := by unfold isub chk; rw [if_pos h2]
    by_cases h3 : inI32 (rows - cap - 1)
    · have i3 : isub (rows - cap) 1 = .ok (rows - cap - 1) := by unfold isub chk; rw [if_pos h3]
      rw [if_pos ⟨h2, h3⟩]
      simp only [i2, i3]
      rfl
    · have i3 : isub (rows - cap) 1 = .error .signedOverflow := by unfold isub chk; rw [if_neg h3]
      rw [if_neg fun h => h3 h.2]
      simp only [i2, i3]
      rfl
  · have i2 : isub rows cap = .error .signedOverflow := by unfold isub chk; rw [if_neg h2]
    rw [if_neg fun h => h2 h.1]
    simp only [i2]
    rfl

/-! The cases occur: a grid, a cap index above the rows, two negative counts, one negative count. -/
example : inI32 ((5 : Int) * 8) ∧ 0 < 5 * 8 ∧ 5 * 8 ≤ 2147483647 ∧ 3 ≤ 5 := by decide
example : (-2 : Int) * -3 ≤ 2147483647 ∧ inI32 (-2 - 1) ∧ inI32 (-2 - 1 - 1) := by decide
example : (TripolarR.new [-2, 3] 1 : Call' (TripolarR ℚ)) = .error .lengthError := by
  rw [C123_new, if_neg (by decide), if_neg (by decide), if_pos (by decide)]
example : (TripolarR.new [50000, 50000] 1 : Call' (TripolarR ℚ)) = .error (.undefined .signedOverflow) := by
  rw [C123_new, if_pos (by decide)]

end Sg.Props
