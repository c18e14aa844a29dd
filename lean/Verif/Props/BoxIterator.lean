import Verif.Proof.BoxIterator
import Mathlib.Data.Set.Card
import Mathlib.Algebra.Group.Even
import Mathlib.Algebra.Group.Int.Even
import Mathlib.Algebra.Ring.Parity
/-
Properties C01-C05 of the box iterator.
-/
namespace Sg.Props
open Sg Sg.BoxIterator Sg.Spec

/-- The boxes a user may iterate over: axes given by C ints, none empty, and an element count that
fits in an `int`. -/
structure GoodBox (axes : List (Int × Int)) : Prop where
  ints : IntAxes axes
  nonempty : NonEmptyAxes axes
  count : volume axes ≤ 2147483647

/-- **C01** flat index -> tuple -> flat index, with no undefined behaviour. -/
theorem C01_box_roundtrip_index (axes : List (Int × Int)) (h : GoodBox axes) :
    ∃ b, BoxIterator.new axes = .ok b ∧
      ∀ i : Int, 0 ≤ i → i < b.getNumberOfElements →
        ∃ t, b.getElement i = .ok t ∧ InBox axes t ∧ b.getIndex t = .ok i := by
  refine ⟨good axes, new_ok h.nonempty h.count, fun i h0 hi => ?_⟩
  have hiv : i < volume axes := hi
  have hc := h.count
  have hpos := ext_pos h.nonempty
  have e := getElementLoop_ok i h0 (by omega) axes h.nonempty h.ints (ext_le h.nonempty hc)
  have hd := dig_forall2 i (axes.map fun ax => ax.2 - ax.1) hpos
  obtain ⟨hb, hz⟩ := inbox_zip hd
  refine ⟨_, e, hb, ?_⟩
  have g := getIndexLoop_ok axes _ 0 hb (le_refl _) (by omega)
  rw [hz, enc_dig i _ hpos, zero_add, Int.emod_eq_of_lt h0 (by simpa [volume] using hiv)] at g
  exact g

/-- **C01** past the end nothing is checked: the indices wrap around. -/
theorem C01_past_end (axes : List (Int × Int)) (h : GoodBox axes) :
    ∃ b, BoxIterator.new axes = .ok b ∧ ∀ i : Int, 0 ≤ i → i ≤ 2147483647 →
      b.getElement i = b.getElement (i % b.getNumberOfElements) := by
  refine ⟨good axes, new_ok h.nonempty h.count, fun i h0 hi => ?_⟩
  have hpos := ext_pos h.nonempty
  have hp := prod_pos_of hpos
  have hc := h.count
  have hm := Int.emod_lt_of_pos i hp
  have h1 : (axes.map fun ax => ax.2 - ax.1).prod ≤ 2147483647 := hc
  have e1 := getElementLoop_ok i h0 hi axes h.nonempty h.ints (ext_le h.nonempty hc)
  have e2 := getElementLoop_ok (i % (axes.map fun ax => ax.2 - ax.1).prod) (Int.emod_nonneg _ (ne_of_gt hp)) (by omega)
    axes h.nonempty h.ints (ext_le h.nonempty hc)
  have e3 : dig i (axes.map fun ax => ax.2 - ax.1) =
      dig (i % (axes.map fun ax => ax.2 - ax.1).prod) (axes.map fun ax => ax.2 - ax.1) := by
    conv_lhs => rw [← Int.emod_add_mul_ediv i (axes.map fun ax => ax.2 - ax.1).prod, add_comm, mul_comm]
    exact dig_add _ _ _ hpos
  rw [← e3] at e2
  exact e1.trans e2.symm

/-- **C01** is false for a negative index: it gives a tuple outside the box, of which the index is the negative one. -/
theorem C01_negative_refuted :
    ∃ (axes : List (Int × Int)) (b : Box), GoodBox axes ∧ BoxIterator.new axes = .ok b ∧
      b.getElement (-4) = .ok [-1, -1] ∧ ¬ InBox axes [-1, -1] ∧ b.getIndex [-1, -1] = .ok (-4) := by
  refine ⟨[(0, 2), (0, 3)], _, ⟨?_, ?_, by decide⟩, rfl, by decide, ?_, by decide⟩
  · intro ax hax
    simp only [List.mem_cons, List.not_mem_nil, or_false] at hax
    rcases hax with rfl | rfl <;> decide
  · intro ax hax
    simp only [List.mem_cons, List.not_mem_nil, or_false] at hax
    rcases hax with rfl | rfl <;> decide
  · intro h
    cases h with
    | cons h _ => exact absurd h.1 (by decide)

/-- **C02** tuple -> flat index -> tuple. -/
theorem C02_box_roundtrip_tuple (axes : List (Int × Int)) (h : GoodBox axes) :
    ∃ b, BoxIterator.new axes = .ok b ∧
      ∀ t, InBox axes t →
        ∃ i, b.getIndex t = .ok i ∧ 0 ≤ i ∧ i < b.getNumberOfElements ∧ b.getElement i = .ok t := by
  refine ⟨good axes, new_ok h.nonempty h.count, fun t ht => ?_⟩
  have hc := h.count
  obtain ⟨hd, hz⟩ := inbox_unzip ht
  have g := getIndexLoop_ok axes t 0 ht (le_refl _) (by omega)
  have ⟨b1, b2⟩ := enc_bound _ _ hd
  rw [zero_add] at g
  have hlt : enc (axes.map fun ax => ax.2 - ax.1)
    (List.zipWith (fun x l => x - l) t (axes.map (·.1))) < volume axes := b2
  refine ⟨_, g, b1, b2, ?_⟩
  have e := getElementLoop_ok _ b1 (by omega) axes h.nonempty h.ints (ext_le h.nonempty hc)
  rw [dig_enc _ _ hd, hz] at e
  exact e

/-- **C03** increasing flat indices give lexicographically increasing tuples
(`<` on lists is the lexicographic order). -/
theorem C03_box_lex_order (axes : List (Int × Int)) (h : GoodBox axes) :
    ∃ b, BoxIterator.new axes = .ok b ∧
      ∀ i j : Int, 0 ≤ i → i < j → j < b.getNumberOfElements →
        ∃ s t, b.getElement i = .ok s ∧ b.getElement j = .ok t ∧ s < t := by
  refine ⟨good axes, new_ok h.nonempty h.count, fun i j h0 hij hj => ?_⟩
  have hjv : j < volume axes := hj
  have hc := h.count
  have hpos := ext_pos h.nonempty
  refine ⟨_, _, getElementLoop_ok i h0 (by omega) axes h.nonempty h.ints (ext_le h.nonempty hc),
    getElementLoop_ok j (by omega) (by omega) axes h.nonempty h.ints (ext_le h.nonempty hc), ?_⟩
  have hl (k : Int) : (dig k (axes.map fun ax => ax.2 - ax.1)).length = (axes.map (·.1)).length := by
    have := (dig_forall2 k _ hpos).length_eq
    simpa using this.symm
  exact zip_lt _ _ _ (hl i) (hl j) (dig_lt _ _ _ hpos h0 hij hjv)

/-- **C04** construction cannot overflow and the reported number of elements is the number of
integer tuples in the box. -/
theorem C04_box_count (axes : List (Int × Int)) (h : GoodBox axes) :
    ∃ b, BoxIterator.new axes = .ok b ∧
      b.getNumberOfElements = (Set.ncard {t | InBox axes t} : Int) := by
  refine ⟨good axes, new_ok h.nonempty h.count, ?_⟩
  have hpos := ext_pos h.nonempty
  have hp := prod_pos_of hpos
  have hv : volume axes = (axes.map fun ax => ax.2 - ax.1).prod := rfl
  have key : Set.ncard {t | InBox axes t} = (volume axes).toNat := by
    refine Set.ncard_eq_of_bijective
      (fun n _ => List.zipWith (· + ·) (axes.map (·.1)) (dig (n : Int) (axes.map fun ax => ax.2 - ax.1)))
      ?_ ?_ ?_
    · intro t ht
      obtain ⟨hd, hz⟩ := inbox_unzip ht
      have ⟨b1, b2⟩ := enc_bound _ _ hd
      refine ⟨(enc (axes.map fun ax => ax.2 - ax.1)
        (List.zipWith (fun x l => x - l) t (axes.map (·.1)))).toNat, by omega, ?_⟩
      rw [Int.toNat_of_nonneg b1, dig_enc _ _ hd, hz]
    · intro n _
      exact (inbox_zip (dig_forall2 (n : Int) _ hpos)).1
    · intro n m hn hm hnm
      have e1 := (inbox_zip (dig_forall2 (n : Int) _ hpos)).2
      have e2 := (inbox_zip (dig_forall2 (m : Int) _ hpos)).2
      rw [hnm, e2] at e1
      have f1 := enc_dig (n : Int) _ hpos
      have f2 := enc_dig (m : Int) _ hpos
      rw [← e1, f2] at f1
      rw [Int.emod_eq_of_lt (by omega) (by omega), Int.emod_eq_of_lt (by omega) (by omega)] at f1
      omega
  show volume axes = _
  rw [key]; omega

/-- A 4 x 2 x 3 box with a negative low end meets the hypotheses of C01-C04. -/
example : GoodBox [(-2, 2), (5, 7), (0, 3)] :=
  ⟨by unfold IntAxes; decide, by unfold NonEmptyAxes; decide, by decide⟩

example : (do let b ← BoxIterator.new [(-2, 2), (5, 7), (0, 3)]; b.getElement 10)
    = .ok [-1, 6, 1] := by decide

/-! ### C05: empty boxes -/

/-- The count reported by any successful construction is the product of the extents. -/
theorem new_numElems {axes : List (Int × Int)} {b : Box} (h : BoxIterator.new axes = .ok b) :
    b.getNumberOfElements = volume axes := by
  have hd : ∀ (axes : List (Int × Int)) ds, mkDims axes = .ok ds → ds = axes.map fun ax => ax.2 - ax.1 := by
    intro axes
    induction axes with
    | nil => intro ds h; simp [mkDims] at h; simp [h]
    | cons a axes ih =>
      intro ds h
      obtain ⟨x, y⟩ := a
      simp only [mkDims, isub, chk, bind, Except.bind] at h
      split at h
      · simp at h
      · rename_i v hv
        split at hv
        · cases hv
          split at h
          · simp at h
          · rename_i w hw
            simp only [pure, Except.pure, Except.ok.injEq] at h
            rw [← h, ih _ hw]; rfl
        · simp at hv
  have hn : ∀ (ds : List Int) acc n, mkNumElems acc ds = .ok n → n = acc * ds.prod := by
    intro ds
    induction ds with
    | nil => intro acc n h; simp [mkNumElems] at h; simp [h]
    | cons d ds ih =>
      intro acc n h
      simp only [mkNumElems, imul, chk, bind, Except.bind] at h
      split at h
      · simp at h
      · rename_i v hv
        split at hv
        · cases hv
          rw [ih _ _ h, List.prod_cons, mul_assoc]
        · simp at hv
  simp only [BoxIterator.new, bind, Except.bind] at h
  split at h
  · simp at h
  · rename_i ds hds
    split at h
    · simp at h
    · rename_i n hn'
      split at h
      · simp at h
      · simp only [pure, Except.pure, Except.ok.injEq] at h
        have := hn _ _ _ hn'
        rw [hd _ _ hds, one_mul] at this
        rw [← h]; exact this

theorem prod_sign (ds : List Int) :
    (0 < ds.prod ↔ (∀ d ∈ ds, d ≠ 0) ∧ Even (ds.countP (· < 0))) ∧
    (ds.prod < 0 ↔ (∀ d ∈ ds, d ≠ 0) ∧ ¬ Even (ds.countP (· < 0))) := by
  induction ds with
  | nil => simp
  | cons d ds ih =>
    obtain ⟨h1, h2⟩ := ih
    simp only [List.prod_cons, List.mem_cons, forall_eq_or_imp, List.countP_cons]
    rcases lt_trichotomy d 0 with hd | rfl | hd
    · have a : (0 < d * ds.prod ↔ ds.prod < 0) := by
        constructor
        · intro h; by_contra hc; nlinarith
        · intro h; nlinarith
      have b : (d * ds.prod < 0 ↔ 0 < ds.prod) := by
        constructor
        · intro h; by_contra hc; nlinarith
        · intro h; nlinarith
      have hne : d ≠ 0 := by omega
      simp only [a, b, h1, h2, hd, decide_true, if_true, hne, ne_eq, not_false_eq_true, true_and,
        Nat.even_add_one]
      simp
    · simp
    · have a : (0 < d * ds.prod ↔ 0 < ds.prod) := by
        constructor
        · intro h; by_contra hc; nlinarith
        · intro h; nlinarith
      have b : (d * ds.prod < 0 ↔ ds.prod < 0) := by
        constructor
        · intro h; by_contra hc; nlinarith
        · intro h; nlinarith
      have hne : d ≠ 0 := by omega
      have hn : ¬ d < 0 := by omega
      simp only [a, b, h1, h2, hn, decide_false, hne, ne_eq, not_false_eq_true, true_and]
      simp

/-- **C05 (exact characterisation)** the reported count is positive exactly if no axis is empty and
an even number of axes are reversed (`end < beg`). -/
theorem C05_box_positive_count_iff (axes : List (Int × Int)) (b : Box)
    (h : BoxIterator.new axes = .ok b) :
    0 < b.getNumberOfElements ↔
      (∀ ax ∈ axes, ax.1 ≠ ax.2) ∧ Even (axes.countP fun ax => ax.2 < ax.1) := by
  rw [new_numElems h, volume, (prod_sign _).1]
  refine and_congr ?_ ?_
  · constructor
    · intro h ax hax he
      exact h (ax.2 - ax.1) (List.mem_map.2 ⟨ax, hax, rfl⟩) (by omega)
    · intro h d hd he
      obtain ⟨ax, hax, rfl⟩ := List.mem_map.1 hd
      exact h ax hax (by omega)
  · rw [List.countP_map]
    have : ((fun x : Int => decide (x < 0)) ∘ fun ax : Int × Int => ax.2 - ax.1) =
        fun ax => decide (ax.2 < ax.1) := by
      funext ax; simp
    rw [this]

/-- **C05 (partial)** an empty box with at most one reversed axis never reports elements.
Missing for the full property: boxes with an even number (>= 2) of reversed axes, for which the
property is false (`C05_box_empty_refuted`). -/
theorem C05_box_empty_partial (axes : List (Int × Int)) (b : Box)
    (h : BoxIterator.new axes = .ok b) (hempty : ∃ ax ∈ axes, ax.2 ≤ ax.1)
    (hrev : axes.countP (fun ax => ax.2 < ax.1) ≤ 1) :
    b.getNumberOfElements ≤ 0 := by
  by_contra hc
  obtain ⟨h1, h2⟩ := (C05_box_positive_count_iff axes b h).1 (by omega)
  obtain ⟨ax, hax, hle⟩ := hempty
  have hlt : ax.2 < ax.1 := lt_of_le_of_ne hle (fun e => h1 ax hax e.symm)
  have : 0 < axes.countP fun ax => ax.2 < ax.1 := List.countP_pos_iff.2 ⟨ax, hax, by simpa using hlt⟩
  have h1 : axes.countP (fun ax => ax.2 < ax.1) = 1 := by omega
  rw [h1] at h2
  exact absurd h2 (by decide)

/-- **C05 (refuted)** a box with two reversed axes contains no tuple, yet the iterator reports
elements and hands out tuples. -/
theorem C05_box_empty_refuted :
    ∃ axes b t, BoxIterator.new axes = .ok b ∧ (∀ s, ¬ InBox axes s) ∧
      0 < b.getNumberOfElements ∧ b.getElement 0 = .ok t := by
  refine ⟨[(3, 1), (2, 0)], ⟨[3, 2], [-2, -2], [-2, 1], 4⟩, [3, 2], by decide, ?_, by decide, by decide⟩
  intro s hs
  cases hs with
  | cons h _ => omega

theorem getElementLoop_zero (i : Int) : ∀ (ls ds ps : List Int), ls.length = ds.length → ps.length = ds.length → (0 : Int) ∈ ds →
    ∃ e, getElementLoop i ls ds ps = .error e
  | [], [], _, _, _, h => by simp at h
  | [], d :: ds, _, h, _, _ => by simp at h
  | _ :: _, [], _, h, _, _ => by simp at h
  | _ :: _, _ :: _, [], _, h, _ => by simp at h
  | l :: ls, d :: ds, p :: ps, h1, h2, h0 => by
    simp only [List.length_cons, Nat.add_right_cancel_iff] at h1 h2
    unfold getElementLoop
    simp only [bind, Except.bind]
    cases idiv i p with
    | error e => exact ⟨e, rfl⟩
    | ok q =>
      dsimp only
      cases hm : imod q d with
      | error e => exact ⟨e, rfl⟩
      | ok r =>
        dsimp only
        cases iadd l r with
        | error e => exact ⟨e, rfl⟩
        | ok x =>
          have hd : d ≠ 0 := by
            rintro rfl
            simp [imod] at hm
          obtain ⟨e, he⟩ := getElementLoop_zero i ls ds ps h1 h2 (by
            rcases List.mem_cons.1 h0 with h | h
            · exact absurd h.symm hd
            · exact h)
          dsimp only
          rw [he]
          exact ⟨e, rfl⟩

theorem new_shape {axes : List (Int × Int)} {b : Box} (h : BoxIterator.new axes = .ok b) :
    b.dims = axes.map (fun ax => ax.2 - ax.1) ∧ b.lowEnd.length = b.dims.length ∧ b.dimProd.length = b.dims.length := by
  have hd : ∀ (axes : List (Int × Int)) ds, mkDims axes = .ok ds → ds = axes.map fun ax => ax.2 - ax.1 := by
    intro axes
    induction axes with
    | nil => intro ds h; simp [mkDims] at h; simp [h]
    | cons a axes ih =>
      intro ds h
      obtain ⟨x, y⟩ := a
      simp only [mkDims, bind, Except.bind] at h
      cases hx : isub y x with
      | error e => rw [hx] at h; simp at h
      | ok v =>
        cases hw : mkDims axes with
        | error e => rw [hx, hw] at h; simp at h
        | ok w =>
          rw [hx, hw] at h
          simp only [pure, Except.pure, Except.ok.injEq] at h
          have : v = y - x := by
            unfold isub chk at hx
            split at hx <;> simp_all
          rw [← h, ih _ hw, this]; rfl
  have hp : ∀ (ds ps : List Int), mkDimProd ds = .ok ps → ps.length = ds.length := by
    intro ds
    induction ds with
    | nil => intro ps h; simp [mkDimProd] at h; simp [h]
    | cons d ds ih =>
      intro ps h
      cases ds with
      | nil => simp [mkDimProd] at h; simp [← h]
      | cons d1 ds =>
        simp only [mkDimProd, bind, Except.bind] at h
        cases hq : mkDimProd (d1 :: ds) with
        | error e => rw [hq] at h; simp at h
        | ok qs =>
          rw [hq] at h
          dsimp only at h
          cases hv : vget qs 0 with
          | error e => rw [hv] at h; simp at h
          | ok v =>
            rw [hv] at h
            dsimp only at h
            cases hm : imul v d1 with
            | error e => rw [hm] at h; simp at h
            | ok m =>
              rw [hm] at h
              simp only [pure, Except.pure, Except.ok.injEq] at h
              rw [← h, List.length_cons, ih _ hq]; rfl
  simp only [BoxIterator.new, bind, Except.bind] at h
  cases h1 : mkDims axes with
  | error e => rw [h1] at h; simp at h
  | ok ds =>
    rw [h1] at h
    dsimp only at h
    cases h2 : mkNumElems 1 ds with
    | error e => rw [h2] at h; simp at h
    | ok n =>
      rw [h2] at h
      dsimp only at h
      cases h3 : mkDimProd ds with
      | error e => rw [h3] at h; simp at h
      | ok ps =>
        rw [h3] at h
        simp only [pure, Except.pure, Except.ok.injEq] at h
        rw [← h]
        have := hd _ _ h1
        exact ⟨this, by simp [this], hp _ _ h3⟩

/-- **C05**: in a box with an axis of zero extent, asking for any element is undefined behaviour (a division by zero). -/
theorem C05_zero_extent (axes : List (Int × Int)) (b : Box) (h : BoxIterator.new axes = .ok b) (hz : ∃ ax ∈ axes, ax.1 = ax.2) (i : Int) :
    ∃ e, b.getElement i = .error e := by
  obtain ⟨h1, h2, h3⟩ := new_shape h
  obtain ⟨ax, hax, he⟩ := hz
  refine getElementLoop_zero i _ _ _ h2 h3 ?_
  rw [h1]
  exact List.mem_map.2 ⟨ax, hax, by omega⟩

/-- **C04, the limit is needed**: a box whose volume does not fit an `int` cannot be constructed without undefined behaviour. -/
theorem C04_box_overflow (axes : List (Int × Int)) (hv : 2147483647 < volume axes) : ∃ e, BoxIterator.new axes = .error e := by
  cases hb : BoxIterator.new axes with
  | error e => exact ⟨e, rfl⟩
  | ok b =>
    exfalso
    have hnum := new_numElems hb
    have hc : ∀ (ds : List Int) acc n, acc ≤ 2147483647 → mkNumElems acc ds = .ok n → n ≤ 2147483647 := by
      intro ds
      induction ds with
      | nil => intro acc n ha h; simp [mkNumElems] at h; omega
      | cons d ds ih =>
        intro acc n ha h
        simp only [mkNumElems, bind, Except.bind] at h
        cases hm : imul acc d with
        | error e => rw [hm] at h; simp at h
        | ok m =>
          rw [hm] at h
          refine ih m n ?_ h
          unfold imul chk at hm
          split at hm
          · rename_i hin
            rw [Except.ok.injEq] at hm
            rw [← hm]; exact hin.2
          · simp at hm
    have : b.numElems ≤ 2147483647 := by
      simp only [BoxIterator.new, bind, Except.bind] at hb
      cases h1 : mkDims axes with
      | error e => rw [h1] at hb; simp at hb
      | ok ds =>
        rw [h1] at hb
        dsimp only at hb
        cases h2 : mkNumElems 1 ds with
        | error e => rw [h2] at hb; simp at hb
        | ok n =>
          rw [h2] at hb
          dsimp only at hb
          cases h3 : mkDimProd ds with
          | error e => rw [h3] at hb; simp at hb
          | ok ps =>
            rw [h3] at hb
            simp only [pure, Except.pure, Except.ok.injEq] at hb
            rw [← hb]
            exact hc _ _ _ (by norm_num) h2
    have : volume axes ≤ 2147483647 := by rw [← hnum]; exact this
    omega

example : 2147483647 < volume [(0, 65536), (0, 65536)] := by decide

/-- With an axis of zero extent the count is 0. -/
example : (BoxIterator.new [(0, 3), (2, 2)]).map (·.numElems) = .ok 0 := by decide

end Sg.Props
