import Verif.Model.FindPointRaw
import Verif.Proof.Cxx
import Verif.Proof.FindPoint
import Mathlib.Tactic.Ring
import Mathlib.Tactic.Push
/- Lemmas on `setGrid` with vectors and pointers. -/
namespace Sg.FindPoint
open Sg.LinearSolve FOps

set_option linter.unusedSectionVars false
variable {F : Type} [Zero F] [One F] [Add F] [Sub F] [Mul F] [Div F] [Neg F] [LT F] [DecidableLT F]
  [LE F] [DecidableLE F] [DecidableEq F] [NatCast F] [IntCast F] [FOps F] {n : Nat}

/-- A resized vector. -/
def rsz {α : Type} (v : List α) (k : Nat) (a : α) : List α := v.take k ++ List.replicate (k - v.length) a

theorem rsz_length {α : Type} (v : List α) (k : Nat) (a : α) : (rsz v k a).length = k := by
  simp [rsz]; omega

theorem rsz_get {α : Type} (v : List α) (k : Nat) (a : α) {i : Nat} (h : i < k) : (rsz v k a)[i]? = some (v.getD i a) := by
  unfold rsz
  by_cases hi : i < v.length
  · rw [List.getElem?_append_left (by simp; omega), List.getElem?_take_of_lt h, List.getD_eq_getElem?_getD,
      List.getElem?_eq_getElem hi]
    rfl
  · rw [List.getElem?_append_right (by simp; omega), List.getElem?_replicate, if_pos (by simp; omega),
      List.getD_eq_getElem?_getD, List.getElem?_eq_none (by omega)]
    rfl

theorem resize_ok {α : Type} {v : List α} {k : Nat} {a : α} (h : k ≤ 1152921504606846975) : resize v k a = .ok (rsz v k a) := by
  simp [resize, rsz, h]

theorem toSize_nat {k : Nat} (h : k < 18446744073709551616) : toSize (k : Int) = k := by
  unfold toSize
  omega

theorem toSize_neg {x : Int} (h : -2147483648 ≤ x) (h0 : x < 0) : 1152921504606846975 < toSize x := by
  unfold toSize
  omega

theorem resizeAll_ok (s : Raw F) {k : Nat} (hk : k ≤ 46340) :
    s.resizeAll (k : Int) = .ok { s with
      coords := rsz s.coords k [], prodDims := rsz s.prodDims k 0, nodeProdDims := rsz s.nodeProdDims k 0,
      dims := rsz s.dims k 0, jacMatrix := rsz s.jacMatrix (k * k) 0, rhs := rsz s.rhs k 0, dIndices := rsz s.dIndices k 0,
      targetPoint := rsz s.targetPoint k 0, xmins := rsz s.xmins k big, xmaxs := rsz s.xmaxs k (-big),
      indexPeriodicity := rsz s.indexPeriodicity k 0 } := by
  have h1 : toSize (k : Int) = k := toSize_nat (by omega)
  have hkk : k * k ≤ 46340 * 46340 := Nat.mul_le_mul hk hk
  have h2 : imul (k : Int) (k : Int) = .ok ((k * k : Nat) : Int) := by
    have : inI32 ((k : Int) * (k : Int)) := by
      rw [← Nat.cast_mul]; unfold inI32; omega
    simp only [imul, chk, if_pos this, Nat.cast_mul]
  have h3 : toSize ((k * k : Nat) : Int) = k * k := toSize_nat (by omega)
  unfold Raw.resizeAll
  simp only [h1, h2, h3, lift', bind, Except.bind, pure, Except.pure,
    resize_ok (show k ≤ 1152921504606846975 by omega), resize_ok (show k * k ≤ 1152921504606846975 by omega)]

theorem setPeriodicity_ok {D P : List Int} {dims per : Fin n → Int} (hD : ∀ i : Fin n, D[(i : Nat)]? = some (dims i))
    (hP : ∀ i : Fin n, P[(i : Nat)]? = some (per i)) {v : List F} (hv : v.length = n) :
    ∃ v', setPeriodicity n D P v = .ok v' ∧ v'.length = n ∧
      ∀ i : Fin n, v'[(i : Nat)]? = if per i ≠ 0 then some ((dims i : F)) else v[(i : Nat)]? := by
  obtain ⟨v', e, h1, h2, h3⟩ := forN_inv (fun k (w : List F) => w.length = n ∧
      (∀ i : Fin n, (i : Nat) < k → w[(i : Nat)]? = if per i ≠ 0 then some ((dims i : F)) else v[(i : Nat)]?) ∧
      ∀ i : Fin n, k ≤ (i : Nat) → w[(i : Nat)]? = v[(i : Nat)]?)
    (fun i v => do
      let p ← vget P i
      if p ≠ 0 then
        let d ← vget D i
        vset v i (d : F)
      else return v) n v ⟨hv, fun i hi => absurd hi (Nat.not_lt_zero _), fun _ _ => rfl⟩ (by
      rintro k w hk ⟨hw, h1, h2⟩
      have eP := vget_eq_ok.mpr (hP ⟨k, hk⟩)
      have eD := vget_eq_ok.mpr (hD ⟨k, hk⟩)
      simp only at eP eD
      simp only [eP, eD, bind, Except.bind, pure, Except.pure]
      by_cases hp : per ⟨k, hk⟩ ≠ 0
      · rw [if_pos hp, vset_ok (by omega)]
        refine ⟨_, rfl, by simpa using hw, ?_, ?_⟩
        · intro i hi
          by_cases hik : (i : Nat) = k
          · have : i = ⟨k, hk⟩ := Fin.ext hik
            subst this
            rw [if_pos hp, List.getElem?_set_self (by omega)]
          · rw [List.getElem?_set_ne (by omega)]
            exact h1 i (by omega)
        · intro i hi
          rw [List.getElem?_set_ne (by omega)]
          exact h2 i (by omega)
      · rw [if_neg hp]
        refine ⟨_, rfl, hw, ?_, fun i hi => h2 i (by omega)⟩
        intro i hi
        by_cases hik : (i : Nat) = k
        · have : i = ⟨k, hk⟩ := Fin.ext hik
          subst this
          rw [if_neg hp]
          exact h2 _ le_rfl
        · exact h1 i (by omega))
  exact ⟨v', e, h1, fun i => h2 i i.2⟩

theorem setDims_ok {D : List Int} {dims : Fin n → Nat} (hD : ∀ i : Fin n, D[(i : Nat)]? = some (dims i : Int))
    (hsz : ∀ k ≤ n, ((List.ofFn dims).take k).prod ≤ 2147483647) (hd : ∀ i, dims i ≤ 2147483647)
    {v : List Nat} (hv : v.length = n) :
    setDims n D v = .ok (((List.ofFn dims).prod : Nat), List.ofFn dims) := by
  have htake : ∀ k < n, ∀ h : k < n, ((List.ofFn dims).take (k + 1)).prod = ((List.ofFn dims).take k).prod * dims ⟨k, h⟩ := by
    intro k _ h
    rw [List.take_succ_eq_append_getElem (by simpa using h), List.prod_append]
    simp
  obtain ⟨⟨p, w⟩, e, hp, hw, h1⟩ := forN_inv (fun k (s : Int × List Nat) => s.1 = (((List.ofFn dims).take k).prod : Nat) ∧
      s.2.length = n ∧ ∀ i : Fin n, (i : Nat) < k → s.2[(i : Nat)]? = some (dims i))
    (fun i s => do
      let d ← vget D i
      let ntot ← imul s.1 d
      let v ← vset s.2 i (toSize d)
      return (ntot, v)) n ((1 : Int), v) ⟨by simp, hv, fun i hi => absurd hi (Nat.not_lt_zero _)⟩ (by
      rintro k ⟨p, w⟩ hk ⟨hp, hw, h1⟩
      have eD := vget_eq_ok.mpr (hD ⟨k, hk⟩)
      simp only at eD hp hw h1
      have hm : imul p (dims ⟨k, hk⟩ : Int) = .ok ((((List.ofFn dims).take (k + 1)).prod : Nat) : Int) := by
        rw [htake k hk hk, hp]
        have := hsz (k + 1) hk
        rw [htake k hk hk] at this
        have h2 : inI32 (((((List.ofFn dims).take k).prod : Nat) : Int) * (dims ⟨k, hk⟩ : Int)) := by
          rw [← Nat.cast_mul]; unfold inI32; omega
        simp only [imul, chk, if_pos h2, Nat.cast_mul]
      have ht : toSize (dims ⟨k, hk⟩ : Int) = dims ⟨k, hk⟩ := toSize_nat (by have := hd ⟨k, hk⟩; omega)
      simp only [eD, hm, ht, vset_ok (show k < w.length by omega), bind, Except.bind, pure, Except.pure]
      refine ⟨_, rfl, rfl, by simpa using hw, ?_⟩
      intro i hi
      by_cases hik : (i : Nat) = k
      · have : i = ⟨k, hk⟩ := Fin.ext hik
        subst this
        rw [List.getElem?_set_self (by omega)]
      · rw [List.getElem?_set_ne (by omega)]
        exact h1 i (by omega))
  have e' : setDims n D v = .ok (p, w) := e
  simp only at hp hw h1
  rw [e', hp]
  congr 2
  · rw [List.take_of_length_le (by simp)]
  · apply List.ext_getElem? 
    intro i
    by_cases hi : i < n
    · rw [h1 ⟨i, hi⟩ hi, List.getElem?_ofFn, dif_pos hi]
    · rw [List.getElem?_eq_none (by omega), List.getElem?_eq_none (by simp; omega)]

/-- Product of the numbers of nodes of the axes after `i`. -/
theorem prodDims_eq_drop (dims : Fin n → Nat) (i : Nat) : prodDims dims i = ((List.ofFn dims).drop (i + 1)).prod := by
  unfold prodDims
  split
  · next h =>
    rw [prodDims_eq_drop dims (i + 1), List.drop_eq_getElem_cons (i := i + 1) (by simpa using h), List.prod_cons,
      Nat.mul_comm]
    simp
  · next h =>
    rw [List.drop_eq_nil_of_le (by simp; omega), List.prod_nil]
termination_by n - i

theorem nodeProdDims_eq_pow (n i : Nat) : nodeProdDims n i = 2 ^ (n - 1 - i) := by
  unfold nodeProdDims
  split
  · next h =>
    rw [nodeProdDims_eq_pow n (i + 1), ← Nat.pow_succ]
    congr 1; omega
  · next h =>
    rw [show n - 1 - i = 0 by omega, Nat.pow_zero]
termination_by n - i

theorem setProducts_ok {D : List Int} {dims : Fin n → Nat} (hn : 0 < n) (hn' : n ≤ 64)
    (hD : ∀ i : Fin n, D[(i : Nat)]? = some (dims i : Int))
    (hsz : ∀ i < n, prodDims dims i < 18446744073709551616) (hd : ∀ i, dims i ≤ 2147483647)
    {v w : List Nat} (hv : v.length = n) (hw : w.length = n) :
    setProducts n D v w = .ok ((List.range n).map (prodDims dims), (List.range n).map (nodeProdDims n)) := by
  have hlast : ∀ i, n ≤ i + 1 → prodDims dims i = 1 := fun i hi => by
    rw [prodDims_eq_drop, List.drop_eq_nil_of_le (by simp; omega), List.prod_nil]
  have hlast' : ∀ i, n ≤ i + 1 → nodeProdDims n i = 1 := fun i hi => by
    rw [nodeProdDims_eq_pow, show n - 1 - i = 0 by omega, Nat.pow_zero]
  obtain ⟨⟨p, q⟩, e, hp, hq, h1, h2⟩ := forN_inv (fun k (s : List Nat × List Nat) => s.1.length = n ∧ s.2.length = n ∧
      (∀ i < n, n ≤ i + 1 + k → s.1[i]? = some (prodDims dims i)) ∧ ∀ i < n, n ≤ i + 1 + k → s.2[i]? = some (nodeProdDims n i))
    (fun k s => do
      let i := n - 2 - k
      let p ← vget s.1 (i + 1)
      let d ← vget D (i + 1)
      let prod ← vset s.1 i (smul p (toSize d))
      let q ← vget s.2 (i + 1)
      let node ← vset s.2 i (smul q 2)
      return (prod, node)) (n - 1) (v.set (n - 1) 1, w.set (n - 1) 1)
    ⟨by simpa using hv, by simpa using hw, fun i hi hi' => by
      have : i = n - 1 := by omega
      subst this
      rw [List.getElem?_set_self (by omega), hlast _ (by omega)], fun i hi hi' => by
      have : i = n - 1 := by omega
      subst this
      rw [List.getElem?_set_self (by omega), hlast' _ (by omega)]⟩ (by
      rintro k ⟨p, q⟩ hk ⟨hp, hq, h1, h2⟩
      simp only at hp hq h1 h2 ⊢
      have hi : n - 2 - k + 1 < n := by omega
      have eD := vget_eq_ok.mpr (hD ⟨n - 2 - k + 1, hi⟩)
      simp only at eD
      have hP : prodDims dims (n - 2 - k) = prodDims dims (n - 2 - k + 1) * dims ⟨n - 2 - k + 1, hi⟩ := by
        rw [prodDims, dif_pos hi]
      have hN : nodeProdDims n (n - 2 - k) = nodeProdDims n (n - 2 - k + 1) * 2 := by
        rw [nodeProdDims, dif_pos hi]
      have hs1 : smul (prodDims dims (n - 2 - k + 1)) (toSize (dims ⟨n - 2 - k + 1, hi⟩ : Int)) = prodDims dims (n - 2 - k) := by
        rw [toSize_nat (by have := hd ⟨n - 2 - k + 1, hi⟩; omega), smul, ← hP, Nat.mod_eq_of_lt (hsz _ (by omega))]
      have hs2 : smul (nodeProdDims n (n - 2 - k + 1)) 2 = nodeProdDims n (n - 2 - k) := by
        rw [smul, ← hN, Nat.mod_eq_of_lt]
        rw [nodeProdDims_eq_pow]
        calc 2 ^ (n - 1 - (n - 2 - k)) ≤ 2 ^ 63 := Nat.pow_le_pow_right (by decide) (by omega)
          _ < _ := by decide
      simp only [vget_eq_ok.mpr (h1 _ hi (by omega)), eD, hs1, vset_ok (show n - 2 - k < p.length by omega),
        vget_eq_ok.mpr (h2 _ hi (by omega)), hs2, vset_ok (show n - 2 - k < q.length by omega), bind, Except.bind, pure,
        Except.pure]
      refine ⟨_, rfl, by simpa using hp, by simpa using hq, ?_, ?_⟩
      · intro i hin hik
        by_cases h : i = n - 2 - k
        · subst h; rw [List.getElem?_set_self (by omega)]
        · rw [List.getElem?_set_ne (by omega)]; exact h1 i hin (by omega)
      · intro i hin hik
        by_cases h : i = n - 2 - k
        · subst h; rw [List.getElem?_set_self (by omega)]
        · rw [List.getElem?_set_ne (by omega)]; exact h2 i hin (by omega))
  have e' : setProducts n D v w = .ok (p, q) := by
    unfold setProducts
    rw [vset_ok (by omega), vset_ok (by omega)]
    exact e
  refine e'.trans ?_
  simp only at hp hq h1 h2
  congr 2
  · apply List.ext_getElem?
    intro i
    by_cases hi : i < n
    · rw [h1 i hi (by omega), List.getElem?_map, List.getElem?_range hi]; rfl
    · rw [List.getElem?_eq_none (by omega), List.getElem?_eq_none (by simp; omega)]
  · apply List.ext_getElem?
    intro i
    by_cases hi : i < n
    · rw [h2 i hi (by omega), List.getElem?_map, List.getElem?_range hi]; rfl
    · rw [List.getElem?_eq_none (by omega), List.getElem?_eq_none (by simp; omega)]

theorem copyCoords_ok {N : Nat} {src : List F} {c : Nat → F} (hs : ∀ j < N, src[j]? = some (c j)) {v : List F}
    (hv : v.length = N) (lo hi : F) :
    copyCoords N src v lo hi = .ok ((List.range N).map c,
      (List.range N).foldl (fun m j => if m < c j then m else c j) lo,
      (List.range N).foldl (fun m j => if c j < m then m else c j) hi) := by
  obtain ⟨⟨w, a, b⟩, e, hw, h1, ha, hb⟩ := forN_inv (fun k (s : List F × F × F) => s.1.length = N ∧
      (∀ j < k, s.1[j]? = some (c j)) ∧
      s.2.1 = (List.range k).foldl (fun m j => if m < c j then m else c j) lo ∧
      s.2.2 = (List.range k).foldl (fun m j => if c j < m then m else c j) hi)
    (fun j s => do
      let c ← vget src j
      let v ← vset s.1 j c
      return (v, if s.2.1 < c then s.2.1 else c, if c < s.2.2 then s.2.2 else c)) N (v, lo, hi)
    ⟨hv, fun j hj => absurd hj (Nat.not_lt_zero _), rfl, rfl⟩ (by
      rintro k ⟨w, a, b⟩ hk ⟨hw, h1, ha, hb⟩
      simp only at hw h1 ha hb
      simp only [vget_eq_ok.mpr (hs k hk), vset_ok (show k < w.length by omega), bind, Except.bind, pure, Except.pure]
      refine ⟨_, rfl, by simpa using hw, ?_, ?_, ?_⟩
      · intro j hj
        by_cases hjk : j = k
        · subst hjk; rw [List.getElem?_set_self (by omega)]
        · rw [List.getElem?_set_ne (by omega)]; exact h1 j (by omega)
      · rw [List.range_succ, List.foldl_append, ← ha]; rfl
      · rw [List.range_succ, List.foldl_append, ← hb]; rfl)
  refine Eq.trans e ?_
  simp only at hw h1 ha hb
  rw [ha, hb]
  congr 2
  apply List.ext_getElem?
  intro i
  by_cases hi : i < N
  · rw [h1 i hi, List.getElem?_map, List.getElem?_range hi]; rfl
  · rw [List.getElem?_eq_none (by omega), List.getElem?_eq_none (by simp; omega)]

theorem setComponent_ok {N : Nat} (hN : 0 < N) (hN' : N ≤ 2147483647) {C : List (List F)} {c : Nat → F} {i : Nat} {src : List F}
    (hC : C[i]? = some src) (hs : ∀ j < N, src[j]? = some (c j)) (s : Raw F) (h0 : i < s.coords.length)
    {lo hi : F} (h1 : s.xmins[i]? = some lo) (h2 : s.xmaxs[i]? = some hi) :
    s.setComponent (N : Int) C i = .ok { s with
      coords := s.coords.set i ((List.range N).map c)
      xmins := s.xmins.set i ((List.range N).foldl (fun m j => if m < c j then m else c j) lo)
      xmaxs := s.xmaxs.set i ((List.range N).foldl (fun m j => if c j < m then m else c j) hi) } := by
  unfold Raw.setComponent
  have ht : toSize (N : Int) = N := toSize_nat (by omega)
  simp only [vget_ok h0, lift', ht, resize_ok (show N ≤ 1152921504606846975 by omega), vget_eq_ok.mpr hC, vget_eq_ok.mpr h1,
    vget_eq_ok.mpr h2, Int.toNat_natCast, copyCoords_ok hs (rsz_length _ N _), bind, Except.bind, pure, Except.pure]
  rw [if_neg (by omega)]

theorem setComponents_ok {N : Nat} (hN : 0 < N) (hN' : N ≤ 2147483647) {C : List (List F)} {c : Nat → Nat → F} :
    ∀ (k i : Nat) (s : Raw F), i + k = n →
    (∀ a < n, ∃ src, C[a]? = some src ∧ ∀ j < N, src[j]? = some (c a j)) →
    s.coords.length = n → s.xmins.length = n → s.xmaxs.length = n →
    ∃ cs lo hi, s.setComponents (N : Int) C i k = .ok { s with coords := cs, xmins := lo, xmaxs := hi } ∧
      cs.length = n ∧ lo.length = n ∧ hi.length = n ∧
      (∀ a < i, cs[a]? = s.coords[a]? ∧ lo[a]? = s.xmins[a]? ∧ hi[a]? = s.xmaxs[a]?) ∧
      ∀ a, i ≤ a → a < n → cs[a]? = some ((List.range N).map (c a)) ∧
        lo[a]? = (s.xmins[a]?).map ((List.range N).foldl (fun m j => if m < c a j then m else c a j)) ∧
        hi[a]? = (s.xmaxs[a]?).map ((List.range N).foldl (fun m j => if c a j < m then m else c a j))
  | 0, i, s, hi, _, h1, h2, h3 => ⟨s.coords, s.xmins, s.xmaxs, rfl, h1, h2, h3, fun _ _ => ⟨rfl, rfl, rfl⟩,
      fun a ha ha' => by omega⟩
  | k + 1, i, s, hi, hC, h1, h2, h3 => by
    obtain ⟨src, hs, hsrc⟩ := hC i (by omega)
    have e := setComponent_ok hN hN' hs hsrc s (by omega) (List.getElem?_eq_getElem (show i < s.xmins.length by omega))
      (List.getElem?_eq_getElem (show i < s.xmaxs.length by omega))
    obtain ⟨cs, lo, hi', e', l1, l2, l3, hb, ha⟩ := setComponents_ok hN hN' (c := c) k (i + 1) { s with
      coords := s.coords.set i ((List.range N).map (c i))
      xmins := s.xmins.set i ((List.range N).foldl (fun m j => if m < c i j then m else c i j) s.xmins[i])
      xmaxs := s.xmaxs.set i ((List.range N).foldl (fun m j => if c i j < m then m else c i j) s.xmaxs[i]) } (by omega) hC
      (by simpa using h1) (by simpa using h2) (by simpa using h3)
    refine ⟨cs, lo, hi', ?_, l1, l2, l3, ?_, ?_⟩
    · unfold Raw.setComponents
      simp only [e, bind, Except.bind]
      exact e'
    · intro a hai
      obtain ⟨b1, b2, b3⟩ := hb a (by omega)
      simp only at b1 b2 b3
      rw [List.getElem?_set_ne (by omega)] at b1 b2 b3
      exact ⟨b1, b2, b3⟩
    · intro a hai han
      by_cases h : a = i
      · subst h
        obtain ⟨b1, b2, b3⟩ := hb a (by omega)
        simp only at b1 b2 b3
        rw [List.getElem?_set_self (by omega)] at b1 b2 b3
        refine ⟨b1, ?_, ?_⟩
        · rw [b2, List.getElem?_eq_getElem (show a < s.xmins.length by omega)]; rfl
        · rw [b3, List.getElem?_eq_getElem (show a < s.xmaxs.length by omega)]; rfl
      · obtain ⟨b1, b2, b3⟩ := ha a (by omega) han
        simp only at b1 b2 b3
        rw [List.getElem?_set_ne (by omega)] at b2 b3
        exact ⟨b1, b2, b3⟩

/-! ### Calls that do not return -/

theorem setDims_overflow_from {D : List Int} {dims : Fin n → Nat} (hD : ∀ i : Fin n, D[(i : Nat)]? = some (dims i : Int))
    (h1 : ∀ i, 1 ≤ dims i) : ∀ (k start : Nat) (p : Nat) (v : List Nat), start + k = n → v.length = n → p ≤ 2147483647 →
    2147483647 < p * ((List.ofFn dims).drop start).prod →
    forFrom start k ((p : Int), v) (fun i s => do
      let d ← vget D i
      let ntot ← imul s.1 d
      let v ← vset s.2 i (toSize d)
      return (ntot, v)) = .error .signedOverflow
  | 0, start, p, v, hk, hv, hp, h => by
    rw [List.drop_eq_nil_of_le (by simp; omega), List.prod_nil] at h
    omega
  | k + 1, start, p, v, hk, hv, hp, h => by
    have hs : start < n := by omega
    have eD := vget_eq_ok.mpr (hD ⟨start, hs⟩)
    simp only at eD
    rw [List.drop_eq_getElem_cons (by simpa using hs), List.prod_cons] at h
    simp only [List.getElem_ofFn] at h
    unfold forFrom
    simp only [eD, bind, Except.bind, pure, Except.pure]
    by_cases hlt : p * dims ⟨start, hs⟩ ≤ 2147483647
    · have h2 : imul (p : Int) (dims ⟨start, hs⟩ : Int) = .ok ((p * dims ⟨start, hs⟩ : Nat) : Int) := by
        have h2 : inI32 ((p : Int) * (dims ⟨start, hs⟩ : Int)) := by
          rw [← Nat.cast_mul]; unfold inI32; omega
        simp only [imul, chk, if_pos h2, Nat.cast_mul]
      simp only [h2, vset_ok (show start < v.length by omega)]
      exact setDims_overflow_from hD h1 k (start + 1) _ _ (by omega) (by simpa using hv) hlt (by rwa [Nat.mul_assoc])
    · have h2 : imul (p : Int) (dims ⟨start, hs⟩ : Int) = .error .signedOverflow := by
        have h2 : ¬ inI32 ((p : Int) * (dims ⟨start, hs⟩ : Int)) := by
          rw [← Nat.cast_mul]; unfold inI32; omega
        simp only [imul, chk, if_neg h2]
      simp only [h2]

theorem setDims_overflow {D : List Int} {dims : Fin n → Nat} (hD : ∀ i : Fin n, D[(i : Nat)]? = some (dims i : Int))
    (h1 : ∀ i, 1 ≤ dims i) {v : List Nat} (hv : v.length = n) (h : 2147483647 < (List.ofFn dims).prod) :
    setDims n D v = .error .signedOverflow :=
  setDims_overflow_from hD h1 n 0 1 v (by omega) hv (by omega) (by simpa using h)

theorem setProducts_defined {D : List Int} (hn : 0 < n) (hD : n ≤ D.length) {v w : List Nat} (hv : v.length = n)
    (hw : w.length = n) : ∃ r, setProducts n D v w = .ok r := by
  unfold setProducts
  rw [vset_ok (by omega), vset_ok (by omega)]
  obtain ⟨r, e, -⟩ := forN_inv (fun _ (s : List Nat × List Nat) => s.1.length = n ∧ s.2.length = n)
    (fun k s => do
      let i := n - 2 - k
      let p ← vget s.1 (i + 1)
      let d ← vget D (i + 1)
      let prod ← vset s.1 i (smul p (toSize d))
      let q ← vget s.2 (i + 1)
      let node ← vset s.2 i (smul q 2)
      return (prod, node)) (n - 1) (v.set (n - 1) 1, w.set (n - 1) 1) ⟨by simpa using hv, by simpa using hw⟩ (by
      rintro k ⟨p, q⟩ hk ⟨hp, hq⟩
      simp only at hp hq
      simp only [vget_ok (show n - 2 - k + 1 < p.length by omega), vget_ok (show n - 2 - k + 1 < D.length by omega),
        vset_ok (show n - 2 - k < p.length by omega), vget_ok (show n - 2 - k + 1 < q.length by omega),
        vset_ok (show n - 2 - k < q.length by omega), bind, Except.bind, pure, Except.pure]
      exact ⟨_, rfl, by simpa using hp, by simpa using hq⟩)
  exact ⟨r, e⟩

/-- The counts may be any integers, as long as the products do not leave the range. -/
theorem setDims_int {D : List Int} (hD : n ≤ D.length) (hsz : ∀ k ≤ n, inI32 (D.take k).prod)
    {v : List Nat} (hv : v.length = n) : ∃ w, setDims n D v = .ok ((D.take n).prod, w) := by
  obtain ⟨⟨p, w⟩, e, hp, -⟩ := forN_inv (fun k (s : Int × List Nat) => s.1 = (D.take k).prod ∧ s.2.length = n)
    (fun i s => do
      let d ← vget D i
      let ntot ← imul s.1 d
      let v ← vset s.2 i (toSize d)
      return (ntot, v)) n ((1 : Int), v) ⟨by simp, hv⟩ (by
      rintro k ⟨p, w⟩ hk ⟨hp, hw⟩
      simp only at hp hw
      have ht : (D.take (k + 1)).prod = (D.take k).prod * D[k] := by
        rw [List.take_succ_eq_append_getElem (by omega), List.prod_append]
        simp
      have hm : imul p D[k] = .ok (D.take (k + 1)).prod := by
        have h2 := hsz (k + 1) hk
        rw [ht] at h2 ⊢
        simp only [imul, chk, hp, if_pos h2]
      simp only [vget_ok (show k < D.length by omega), hm, vset_ok (show k < w.length by omega), bind, Except.bind, pure,
        Except.pure]
      exact ⟨_, rfl, rfl, by simpa using hw⟩)
  simp only at hp
  exact ⟨w, by rw [← hp]; exact e⟩

theorem copyCoords_short {N : Nat} {src : List F} (hs : src.length < N) :
    ∀ (k start : Nat) (v : List F) (lo hi : F), start + k = N → start ≤ src.length → v.length = N →
    forFrom start k (v, lo, hi) (fun j s => do
      let c ← vget src j
      let v ← vset s.1 j c
      return (v, if s.2.1 < c then s.2.1 else c, if c < s.2.2 then s.2.2 else c)) = .error .outOfBounds
  | 0, start, v, lo, hi, hk, hle, hv => by omega
  | k + 1, start, v, lo, hi, hk, hle, hv => by
    unfold forFrom
    by_cases h : start < src.length
    · simp only [vget_ok h, vset_ok (show start < v.length by omega), bind, Except.bind, pure, Except.pure]
      exact copyCoords_short hs k (start + 1) _ _ _ (by omega) (by omega) (by simpa using hv)
    · have : vget src start = .error .outOfBounds := by
        unfold vget; rw [List.getElem?_eq_none (by omega)]
      simp only [this, bind, Except.bind]

theorem setComponents_short {N : Nat} (hN : 0 < N) (hN' : N ≤ 2147483647) {C : List (List F)} :
    ∀ (k i : Nat) (s : Raw F), i + k = n → s.coords.length = n → s.xmins.length = n → s.xmaxs.length = n →
    (∃ a, i ≤ a ∧ a < n ∧ ∀ src, C[a]? = some src → src.length < N) →
    s.setComponents (N : Int) C i k = .error (.undefined .outOfBounds)
  | 0, i, s, hi, h1, h2, h3, ⟨a, ha, ha', _⟩ => by omega
  | k + 1, i, s, hi, h1, h2, h3, ⟨a, ha, ha', h⟩ => by
    have ht : toSize (N : Int) = N := toSize_nat (by omega)
    by_cases hok : ∃ src, C[i]? = some src ∧ N ≤ src.length
    · obtain ⟨src, hs, hl⟩ := hok
      have hsrc : ∀ j < N, src[j]? = some ((fun j => src.getD j 0) j) := fun j hj => by
        simp only [List.getD_eq_getElem?_getD, List.getElem?_eq_getElem (show j < src.length by omega), Option.getD_some]
      have e := setComponent_ok hN hN' hs hsrc s (by omega) (List.getElem?_eq_getElem (show i < s.xmins.length by omega))
        (List.getElem?_eq_getElem (show i < s.xmaxs.length by omega))
      have hne : a ≠ i := by
        rintro rfl
        have := h src hs
        omega
      unfold Raw.setComponents
      simp only [e, bind, Except.bind]
      exact setComponents_short hN hN' k (i + 1) _ (by omega) (by simpa using h1) (by simpa using h2) (by simpa using h3)
        ⟨a, by omega, ha', h⟩
    · unfold Raw.setComponents Raw.setComponent
      simp only [vget_ok (show i < s.coords.length by omega), lift', ht,
        resize_ok (show N ≤ 1152921504606846975 by omega), bind, Except.bind, pure, Except.pure]
      rw [if_neg (by omega)]
      cases hc : C[i]? with
      | none =>
        have : vget C i = .error .outOfBounds := by unfold vget; rw [hc]
        simp only [this]
      | some src =>
        have hl : src.length < N := by
          by_contra hl
          exact hok ⟨src, hc, by omega⟩
        have he : ∀ lo hi, copyCoords N src (rsz s.coords[i] N 0) lo hi = .error .outOfBounds := fun lo hi =>
          copyCoords_short hl N 0 _ lo hi (by omega) (by omega) (rsz_length _ _ _)
        simp only [vget_eq_ok.mpr hc, vget_ok (show i < s.xmins.length by omega), vget_ok (show i < s.xmaxs.length by omega),
          Int.toNat_natCast, he]

theorem setComponents_zero {C : List (List F)} : ∀ (k i : Nat) (s : Raw F), i + k = n → s.coords.length = n →
    ∃ cs, s.setComponents 0 C i k = .ok { s with coords := cs } ∧ cs.length = n ∧
      ∀ a, (a < i → cs[a]? = s.coords[a]?) ∧ (i ≤ a → a < n → cs[a]? = some [])
  | 0, i, s, hi, h1 => ⟨s.coords, rfl, h1, fun a => ⟨fun _ => rfl, fun h2 h3 => by omega⟩⟩
  | k + 1, i, s, hi, h1 => by
    have e : s.setComponent 0 C i = .ok { s with coords := s.coords.set i [] } := by
      unfold Raw.setComponent
      rw [vget_ok (show i < s.coords.length by omega)]
      simp only [lift', bind, Except.bind, pure, Except.pure]
      rw [show resize (s.coords[i]'(by omega)) (toSize 0) (0 : F) = .ok [] by simp [resize, toSize]]
      rfl
    obtain ⟨cs, h2, h3, h4⟩ := setComponents_zero (C := C) k (i + 1) { s with coords := s.coords.set i [] } (by omega) (by simpa using h1)
    refine ⟨cs, ?_, h3, ?_⟩
    · unfold Raw.setComponents
      rw [e]
      exact h2
    · intro a
      constructor
      · intro ha
        rw [(h4 a).1 (by omega)]
        exact List.getElem?_set_ne (by omega)
      · intro ha hn
        rcases Nat.eq_or_lt_of_le ha with rfl | h
        · rw [(h4 i).1 (by omega)]
          exact List.getElem?_set_self (by omega)
        · exact (h4 a).2 h hn

end Sg.FindPoint
