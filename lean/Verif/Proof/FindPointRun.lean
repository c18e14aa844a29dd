import Verif.Model.FindPointRun
import Verif.Proof.FindPointRaw
import Verif.Proof.FindPoint
import Verif.Proof.BoxIteratorRaw
import Verif.Proof.Loops
import Mathlib.Tactic.Ring
import Mathlib.Tactic.Linarith
import Mathlib.Algebra.Order.BigOperators.Group.List
/-
Refinement of the calls of a cell finder: on the vectors of the object they do what `Model/FindPoint` does on functions of the axis.
-/
namespace Sg

/-- A loop over the axes that fills in one result after the other. -/
theorem forFrom_axes {σ α : Type} (P : Nat → σ → Prop) (f : Nat → σ → Cxx σ) : ∀ {n : Nat} (c : Fin n → Cxx α) (start : Nat) (s : σ),
    P start s →
    (∀ k (hk : k < n) s, P (start + k) s →
      (∃ a s', c ⟨k, hk⟩ = .ok a ∧ f (start + k) s = .ok s' ∧ P (start + k + 1) s') ∨
        ∃ e, c ⟨k, hk⟩ = .error e ∧ f (start + k) s = .error e) →
    (∃ v s', FindPoint.forAxes c = .ok v ∧ (∀ i, c i = .ok (v i)) ∧ forFrom start n s f = .ok s' ∧ P (start + n) s') ∨
      ∃ e, FindPoint.forAxes c = .error e ∧ forFrom start n s f = .error e
  | 0, c, start, s, h0, _ => .inl ⟨fun i => i.elim0, s, rfl, fun i => i.elim0, rfl, h0⟩
  | n + 1, c, start, s, h0, hs => by
    rcases hs 0 (by omega) s h0 with ⟨a, s', h1, h2, h3⟩ | ⟨e, h1, h2⟩
    · have h1' : c 0 = .ok a := h1
      have h2' : f start s = .ok s' := h2
      have ih := forFrom_axes P f (fun i => c i.succ) (start + 1) s' (by simpa using h3) fun k hk t ht => by
        have := hs (k + 1) (by omega) t (by rw [show start + (k + 1) = start + 1 + k by omega]; exact ht)
        rw [show start + (k + 1) = start + 1 + k by omega] at this
        exact this
      rcases ih with ⟨v, t, e1, e2, e3, e4⟩ | ⟨e, e1, e2⟩
      · refine .inl ⟨Fin.cons a v, t, ?_, ?_, ?_, ?_⟩
        · simp only [FindPoint.forAxes, h1', e1]
        · intro i
          refine Fin.cases ?_ (fun i => ?_) i
          · simpa using h1'
          · simpa using e2 i
        · simp only [forFrom, h2', e3]
        · rw [show start + (n + 1) = start + 1 + n by omega]; exact e4
      · refine .inr ⟨e, ?_, ?_⟩
        · simp only [FindPoint.forAxes, h1', e1]
        · simp only [forFrom, h2', e2]
    · refine .inr ⟨e, ?_, ?_⟩
      · have h1' : c 0 = .error e := h1
        simp only [FindPoint.forAxes, h1']
      · have h2' : f start s = .error e := h2
        simp only [forFrom, h2']

theorem forN_axes {σ α : Type} (P : Nat → σ → Prop) (f : Nat → σ → Cxx σ) {n : Nat} (c : Fin n → Cxx α) (s : σ) (h0 : P 0 s)
    (hs : ∀ k (hk : k < n) s, P k s →
      (∃ a s', c ⟨k, hk⟩ = .ok a ∧ f k s = .ok s' ∧ P (k + 1) s') ∨ ∃ e, c ⟨k, hk⟩ = .error e ∧ f k s = .error e) :
    (∃ v s', FindPoint.forAxes c = .ok v ∧ (∀ i, c i = .ok (v i)) ∧ forN n s f = .ok s' ∧ P n s') ∨
      ∃ e, FindPoint.forAxes c = .error e ∧ forN n s f = .error e := by
  have := forFrom_axes P f c 0 s h0 fun k hk s h => by simpa using hs k hk s (by simpa using h)
  simpa [forN] using this

end Sg

namespace Sg.FindPoint
open Sg.LinearSolve FOps Sg.Conserve
open Sg.SideIterator (toInt)

set_option linter.unusedSectionVars false
variable {F : Type} [Zero F] [One F] [Add F] [Sub F] [Mul F] [Div F] [Neg F] [LT F] [DecidableLT F]
  [LE F] [DecidableLE F] [DecidableEq F] [NatCast F] [IntCast F] [FOps F] {n : Nat}

/-- The first `n` entries of a vector. -/
def vec (n : Nat) (l : List F) : Fin n → F := fun i => l.getD i 0

theorem vec_get {l : List F} (h : l.length = n) (i : Fin n) : l[(i : Nat)]? = some (vec n l i) := by
  have := i.2
  simp [vec, List.getElem?_eq_getElem (show (i : Nat) < l.length by omega)]

/-- The vectors that describe the grid. -/
structure Shape (dims : Fin n → Nat) (s : Raw F) : Prop where
  len : s.dims.length = n
  counts : ∀ i : Fin n, s.dims[(i : Nat)]? = some (dims i)
  steps : ∀ i : Fin n, s.prodDims[(i : Nat)]? = some (FindPoint.prodDims dims i)
  powers : ∀ i : Fin n, s.nodeProdDims[(i : Nat)]? = some (2 ^ (n - 1 - i))
  one : ∀ i, 1 ≤ dims i
  tot : ∏ i, dims i ≤ 2147483647

theorem Shape.le {dims : Fin n → Nat} {s : Raw F} (h : Shape dims s) (i : Fin n) : dims i ≤ 2147483647 :=
  (Finset.single_le_prod' (f := dims) (fun k _ => h.one k) (Finset.mem_univ i)).trans h.tot

theorem prod_mul_le {dims : Fin n → Nat} {s : Raw F} (h : Shape dims s) (i : Fin n) :
    FindPoint.prodDims dims i * dims i ≤ 2147483647 := by
  refine le_trans ?_ h.tot
  rw [prodDims_eq, mul_comm]
  have h1 : (Finset.univ.filter fun k => i ≤ k) = insert i (Finset.univ.filter fun k => i < k) := by
    ext k; simp [le_iff_eq_or_lt, eq_comm]
  rw [← Finset.prod_insert (s := Finset.univ.filter fun k => i < k) (by simp), ← h1]
  exact Finset.prod_le_prod_of_subset_of_one_le' (Finset.filter_subset _ _) fun k _ _ => h.one k

theorem prod_le {dims : Fin n → Nat} {s : Raw F} (h : Shape dims s) (i : Fin n) : FindPoint.prodDims dims i ≤ 2147483647 :=
  (Nat.le_mul_of_pos_right _ (h.one i)).trans (prod_mul_le h i)

theorem toInt_small {k : Nat} (h : k ≤ 2147483647) : toInt k = k := by
  unfold toInt
  rw [if_pos (by omega)]; omega

/-- Index along one axis of a corner. -/
theorem indx_eq {m b : Nat} (lo : Int) (h1 : 1 ≤ m) (h2 : m ≤ 2147483647) (hb : b < 2) :
    toInt (sadd (toSize (if (if lo ≥ 0 then lo else 0) ≤ (m : Int) - 2 then (if lo ≥ 0 then lo else 0) else toInt (ssub m 2))) b) =
      loCorner m lo + (b : Int) := by
  have h3 : toInt (ssub m 2) = (m : Int) - 2 := by unfold toInt ssub; split_ifs <;> omega
  rw [h3]
  unfold loCorner
  dsimp only
  have hr : ∀ l : Int, -1 ≤ l → l ≤ 2147483645 → toInt (sadd (toSize l) b) = l + (b : Int) := by
    intro l ha hb'
    unfold toInt sadd toSize
    split_ifs <;> omega
  split_ifs with ha hc hc
  all_goals first
    | exact hr _ (by omega) (by omega)


theorem loCorner_le {m : Nat} (lo : Int) (h1 : 1 ≤ m) : -1 ≤ loCorner m lo ∧ loCorner m lo ≤ (m : Int) - 2 := by
  unfold loCorner
  dsimp only
  split_ifs <;> omega

/-- Index along an axis of corner `j`. -/
def cornerIndx (dims : Fin n → Nat) (lo : Fin n → Int) (j : Nat) (i : Fin n) : Int := lo i + ((j / nodeProdDims n i % 2 : Nat) : Int)

/-- A round that finds the index of the cell. -/
theorem cornerRound_ok {dims : Fin n → Nat} {s : Raw F} (h : Shape dims s) {L : List F} (hL : L.length = n) (j : Nat) (i : Fin n)
    {k : Int} (hk : floorI (vec n L i) = some k) (fw : Nat × F) :
    s.cornerRound L j i fw = .ok
      (sadd fw.1 (smul (FindPoint.prodDims dims i) (toSize (loCorner (dims i) k + ((j / nodeProdDims n i % 2 : Nat) : Int)))),
        fw.2 * axisWeight (vec n L i) (loCorner (dims i) k + ((j / nodeProdDims n i % 2 : Nat) : Int))) := by
  have hm := h.le i
  have h1 := h.one i
  have hq : (2 ^ (n - 1 - (i : Nat)) : Nat) ≠ 0 := by positivity
  have e := indx_eq (m := dims i) (b := j / 2 ^ (n - 1 - (i : Nat)) % 2) k h1 hm (Nat.mod_lt _ (by omega))
  have hi : isub (toInt (dims i)) 2 = .ok ((dims i : Int) - 2) := by
    rw [toInt_small hm]
    unfold isub chk
    rw [if_pos (by unfold inI32; omega)]
  unfold Raw.cornerRound
  simp only [vget_eq_ok.mpr (vec_get hL i), vget_eq_ok.mpr (h.counts i), vget_eq_ok.mpr (h.steps i), vget_eq_ok.mpr (h.powers i),
    floorInt, hk, bind, Except.bind, pure, Except.pure, hi, cornerBit, if_neg hq, e, nodeProdDims_eq n i i.2]
  rfl

/-- A round that cannot convert the position. -/
theorem cornerRound_bad {s : Raw F} {L : List F} (hL : L.length = n) (j : Nat) (i : Fin n)
    (hk : floorI (vec n L i) = none) (fw : Nat × F) : s.cornerRound L j i fw = .error .badCast := by
  unfold Raw.cornerRound
  simp only [vget_eq_ok.mpr (vec_get hL i), floorInt, hk, bind, Except.bind]

theorem take_finRange {k : Nat} (hk : k < n) : (List.finRange n).take (k + 1) = (List.finRange n).take k ++ [⟨k, hk⟩] := by
  rw [List.take_succ_eq_append_getElem (by simpa using hk)]
  simp

/-- Flat index of a corner, as a `size_t`. -/
def wrap (x : Int) : Nat := (x % 18446744073709551616).toNat

theorem wrap_add {p : Nat} (hp : p ≤ 2147483647) {x y : Int} : sadd (wrap x) (smul p (toSize y)) = wrap (x + p * y) := by
  have h1 : ((toSize y : Nat) : Int) = y % 18446744073709551616 := by unfold toSize; omega
  have h2 : ((wrap x : Nat) : Int) = x % 18446744073709551616 := by unfold wrap; omega
  have h3 : ((wrap (x + p * y) : Nat) : Int) = (x + p * y) % 18446744073709551616 := by unfold wrap; omega
  zify
  rw [h3]
  unfold sadd smul
  push_cast
  rw [h1, h2]
  rw [← Int.emod_emod_of_dvd (x + p * y) (dvd_refl _), Int.add_emod, Int.mul_emod]
  simp [Int.add_emod, Int.mul_emod]

theorem corner_eq {dims : Fin n → Nat} {s : Raw F} (h : Shape dims s) {L : List F} (hL : L.length = n) (j : Nat) :
    s.corner L j = (loCorners dims (vec n L)).map fun lo =>
      (wrap (cornerIndexWeight dims (vec n L) lo j).1, (cornerIndexWeight dims (vec n L) lo j).2) := by
  unfold Raw.corner
  rw [h.len]
  by_cases hall : ∀ i, (floorI (vec n L i)).isSome
  · have e : loCorners dims (vec n L) = .ok fun i => loCorner (dims i) ((floorI (vec n L i)).get (hall i)) := by
      unfold loCorners; rw [dif_pos hall]
    rw [e]
    set lo : Fin n → Int := fun i => loCorner (dims i) ((floorI (vec n L i)).get (hall i)) with hlo
    obtain ⟨s', e1, e2⟩ := forN_inv (fun k (fw : Nat × F) =>
      fw = (wrap (((List.finRange n).take k).map fun i : Fin n => (FindPoint.prodDims dims i : Int) * cornerIndx dims lo j i).sum,
        ((List.finRange n).take k).foldl (fun w (i : Fin n) => w * axisWeight (vec n L i) (cornerIndx dims lo j i)) 1))
      (s.cornerRound L j) n (0, 1) (by simp [wrap]) (by
        intro k fw hk hfw
        refine ⟨_, cornerRound_ok h hL j ⟨k, hk⟩ (k := (floorI (vec n L ⟨k, hk⟩)).get (hall _)) (by simp) fw, ?_⟩
        rw [hfw, take_finRange hk]
        simp only [List.map_append, List.map_cons, List.map_nil, List.sum_append, List.sum_cons, List.sum_nil, add_zero,
          List.foldl_append, List.foldl_cons, List.foldl_nil]
        rw [wrap_add (prod_le h ⟨k, hk⟩)]
        rfl)
    rw [e1, e2]
    simp only [Except.map, cornerIndexWeight, List.take_of_length_le (show (List.finRange n).length ≤ n by simp)]
    congr 2
  · have e : loCorners dims (vec n L) = .error .badCast := by
      unfold loCorners; rw [dif_neg hall]
    rw [e]
    rcases forN_cond (fun _ _ => True) (fun k => ∀ hk : k < n, (floorI (vec n L ⟨k, hk⟩)).isSome) .badCast (s.cornerRound L j) n
      ((0 : Nat), (1 : F)) trivial (by
        intro k fw hk _
        cases hf : floorI (vec n L ⟨k, hk⟩) with
        | none => exact .inr ⟨fun hc => by simpa [hf] using hc hk, cornerRound_bad hL j ⟨k, hk⟩ hf fw⟩
        | some z => exact .inl ⟨fun _ => by simp [hf], _, cornerRound_ok h hL j ⟨k, hk⟩ hf fw, trivial⟩) with ⟨hc, -⟩ | ⟨-, e1⟩
    · exact absurd (fun i : Fin n => hc i i.2 i.2) hall
    · rw [e1]; rfl


theorem corner_le {dims : Fin n → Nat} {s : Raw F} (h : Shape dims s) {d : Fin n → F} {lo : Fin n → Int}
    (e : loCorners dims d = .ok lo) (j : Nat) :
    -(2147483647 * (n : Int)) ≤ (cornerIndexWeight dims d lo j).1 ∧ (cornerIndexWeight dims d lo j).1 ≤ 2147483647 * (n : Int) := by
  have hlo : ∀ i, -1 ≤ lo i ∧ lo i ≤ (dims i : Int) - 2 := by
    intro i
    unfold loCorners at e
    split_ifs at e with hall
    simp only [Except.ok.injEq] at e
    rw [← e]
    exact loCorner_le _ (h.one i)
  have hterm : ∀ i : Fin n, -2147483647 ≤ (FindPoint.prodDims dims i : Int) * (lo i + ((j / nodeProdDims n i % 2 : Nat) : Int)) ∧
      (FindPoint.prodDims dims i : Int) * (lo i + ((j / nodeProdDims n i % 2 : Nat) : Int)) ≤ 2147483647 := by
    intro i
    obtain ⟨h1, h2⟩ := hlo i
    have hb : j / nodeProdDims n i % 2 < 2 := Nat.mod_lt _ (by omega)
    have hp := prod_le h i
    have hpm := prod_mul_le h i
    have h1' : -1 ≤ lo i + ((j / nodeProdDims n i % 2 : Nat) : Int) := by omega
    have h2' : lo i + ((j / nodeProdDims n i % 2 : Nat) : Int) ≤ (dims i : Int) := by omega
    have hp' : (FindPoint.prodDims dims i : Int) * (dims i : Int) ≤ 2147483647 := by exact_mod_cast hpm
    have hp0 : (0 : Int) ≤ (FindPoint.prodDims dims i : Int) := by omega
    have a1 := mul_le_mul_of_nonneg_left h1' hp0
    have a2 := mul_le_mul_of_nonneg_left h2' hp0
    constructor
    · omega
    · omega
  have hs1 := Finset.sum_le_sum fun i (_ : i ∈ (Finset.univ : Finset (Fin n))) => (hterm i).1
  have hs2 := Finset.sum_le_sum fun i (_ : i ∈ (Finset.univ : Finset (Fin n))) => (hterm i).2
  simp only [Finset.sum_const, Finset.card_univ, Fintype.card_fin, nsmul_eq_mul] at hs1 hs2
  unfold cornerIndexWeight
  dsimp only
  constructor
  · linarith
  · linarith

theorem vget_wrap {α : Type} (l : List α) (hl : l.length ≤ 2147483647) {x : Int} (h1 : -274877906944 ≤ x) (h2 : x ≤ 274877906944) :
    vget l (wrap x) = vgetI l x := by
  unfold vgetI
  split_ifs with h
  · have : wrap x = x.toNat := by unfold wrap; omega
    rw [this]
  · unfold vget
    rw [List.getElem?_eq_none]
    unfold wrap; omega

/-- The pairs of index and weight. -/
theorem getSrc_eq {dims : Fin n → Nat} {s : Raw F} (h : Shape dims s) (hn : n < 64) {L : List F} (hL : L.length = n) :
    s.getSrcIndicesAndWeights L = (FindPoint.getSrcIndicesAndWeights dims (vec n L)).map fun l => l.map fun e => (wrap e.1, e.2) := by
  unfold Raw.getSrcIndicesAndWeights FindPoint.getSrcIndicesAndWeights
  rw [h.len]
  simp only [pow2, if_pos hn, bind, Except.bind]
  cases e : loCorners dims (vec n L) with
  | error u =>
    have hpos : 0 < 2 ^ n := by positivity
    obtain ⟨m, hm⟩ := Nat.exists_eq_succ_of_ne_zero hpos.ne'
    rw [hm]
    simp only [forN, forFrom, corner_eq h hL, e, Except.map]
  | ok lo =>
    simp only [pure, Except.pure, Except.map]
    obtain ⟨r, e1, e2, e3⟩ := forN_inv (fun k (res : List (Nat × F)) => res.length = 2 ^ n ∧ ∀ j < k, res[j]? =
        some (wrap (cornerIndexWeight dims (vec n L) lo j).1, (cornerIndexWeight dims (vec n L) lo j).2))
      (fun j res => do let c ← s.corner L j; vset res j c) (2 ^ n)
      (List.replicate (2 ^ n) ((0 : Nat), (0 : F))) ⟨by simp, by intro j hj; omega⟩ (by
        intro k res hk ⟨h1, h2⟩
        simp only [corner_eq h hL, e, Except.map, bind, Except.bind]
        refine ⟨_, vset_ok (by omega), by simpa using h1, ?_⟩
        intro j hj
        rw [List.getElem?_set]
        by_cases hjk : k = j
        · subst hjk; simp [h1, hk]
        · rw [if_neg hjk]; exact h2 j (by omega))
    simp only [bind, Except.bind] at e1
    rw [e1]
    congr 1
    apply List.ext_getElem?
    intro j
    by_cases hj : j < 2 ^ n
    · rw [e3 j hj]; simp [hj]
    · rw [List.getElem?_eq_none (by omega), List.getElem?_eq_none (by simp; omega)]

theorem forFrom_list {α σ : Type} (f : α → σ → Cxx σ) : ∀ (l pre : List α) (s : σ),
    (forFrom pre.length l.length s fun k s => do let e ← vget (pre ++ l) k; f e s) = l.foldlM (fun s e => f e s) s
  | [], _, _ => rfl
  | a :: l, pre, s => by
    have h : vget (pre ++ a :: l) pre.length = .ok a := vget_eq_ok.mpr (by simp)
    simp only [List.length_cons, forFrom, h, bind, Except.bind, List.foldlM_cons]
    cases hf : f a s with
    | error u => rfl
    | ok t =>
      have ih := forFrom_list f l (pre ++ [a]) t
      simp only [List.append_assoc, List.singleton_append, List.length_append, List.length_cons, List.length_nil] at ih
      exact ih

theorem forN_list {α σ : Type} (f : α → σ → Cxx σ) (l : List α) (s : σ) :
    (forN l.length s fun k s => do let e ← vget l k; f e s) = l.foldlM (fun s e => f e s) s :=
  forFrom_list f l [] s

/-- Interpolation. -/
theorem interp_eq {dims : Fin n → Nat} {s : Raw F} (h : Shape dims s) (hn : n < 64) {L : List F} (hL : L.length = n)
    {c : List F} (hc : c.length ≤ 2147483647) : s.interp L c = FindPoint.interp dims (vec n L) c := by
  unfold Raw.interp FindPoint.interp
  rw [getSrc_eq h hn hL]
  unfold FindPoint.getSrcIndicesAndWeights
  cases e : loCorners dims (vec n L) with
  | error u => rfl
  | ok lo =>
    simp only [bind, Except.bind, pure, Except.pure, Except.map]
    have := forN_list (fun (e : Nat × F) (res : F) => do let v ← vget c e.1; return res + e.2 * v)
      (((List.range (2 ^ n)).map (cornerIndexWeight dims (vec n L) lo)).map fun e => (wrap e.1, e.2)) 0
    refine this.trans ?_
    rw [List.foldlM_map, List.foldlM_map, List.foldlM_map]
    congr 1
    funext res j
    obtain ⟨h1, h2⟩ := corner_le h e j
    rw [vget_wrap c hc (by omega) (by omega)]
    rfl

end Sg.FindPoint
