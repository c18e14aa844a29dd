import Verif.Model.BoxIterator
import Verif.Spec.Box
import Mathlib.Algebra.BigOperators.Group.List.Basic
import Mathlib.Algebra.Order.BigOperators.Group.List
import Mathlib.Tactic.Ring
import Mathlib.Tactic.Linarith
import Mathlib.Tactic.Positivity
import Mathlib.Algebra.Order.Ring.Int
/- Mixed-radix arithmetic behind the box iterator. -/
namespace Sg.BoxIterator
open Sg.Spec

/-- strides, last axis fastest -/
def strides : List Int → List Int
  | [] => []
  | _ :: ds => ds.prod :: strides ds

/-- mixed-radix digits of `i` -/
def dig (i : Int) : List Int → List Int
  | [] => []
  | d :: ds => (i / ds.prod) % d :: dig i ds

/-- value of digits -/
def enc : List Int → List Int → Int
  | _ :: ds, x :: xs => x * ds.prod + enc ds xs
  | _, _ => 0

theorem prod_pos_of {ds : List Int} (h : ∀ d ∈ ds, 0 < d) : 0 < ds.prod := by
  induction ds with
  | nil => simp
  | cons d ds ih =>
    simp only [List.prod_cons]
    exact Int.mul_pos (h d (by simp)) (ih fun e he => h e (by simp [he]))

theorem tail_pos {d : Int} {ds : List Int} (h : ∀ e ∈ d :: ds, 0 < e) : ∀ e ∈ ds, 0 < e :=
  fun e he => h e (by simp [he])

theorem prod_le_of {d : Int} {ds : List Int} (h : ∀ e ∈ d :: ds, 0 < e) : ds.prod ≤ (d :: ds).prod := by
  have h1 := h d (by simp)
  have h2 := prod_pos_of (tail_pos h)
  simp only [List.prod_cons]; nlinarith

theorem enc_dig (i : Int) : ∀ ds : List Int, (∀ d ∈ ds, 0 < d) → enc ds (dig i ds) = i % ds.prod
  | [], _ => by simp [enc, Int.emod_one]
  | d :: ds, h => by
    have hp := prod_pos_of (tail_pos h)
    have hd := h d (by simp)
    simp only [enc, dig, List.prod_cons, enc_dig i ds (tail_pos h)]
    rw [mul_comm d, Int.emod_def i (ds.prod * d), Int.emod_def (i / ds.prod) d,
      Int.emod_def i ds.prod, Int.ediv_ediv_of_nonneg (le_of_lt hp)]
    ring

theorem enc_bound : ∀ (ds xs : List Int), List.Forall₂ (fun d x => 0 ≤ x ∧ x < d) ds xs →
    0 ≤ enc ds xs ∧ enc ds xs < ds.prod
  | _, _, .nil => by simp [enc]
  | d :: ds, x :: xs, .cons hx h => by
    have ⟨h1, h2⟩ := enc_bound ds xs h
    have hp : 0 < ds.prod := by omega
    simp only [enc, List.prod_cons]
    constructor
    · have := Int.mul_nonneg hx.1 (le_of_lt hp); omega
    · have : x * ds.prod + ds.prod ≤ d * ds.prod := by nlinarith [hx.2]
      omega

theorem dig_add (c : Int) (i : Int) : ∀ ds : List Int, (∀ d ∈ ds, 0 < d) →
    dig (c * ds.prod + i) ds = dig i ds
  | [], _ => rfl
  | d :: ds, h => by
    have hp := prod_pos_of (tail_pos h)
    simp only [dig, List.prod_cons]
    have e1 : c * (d * ds.prod) + i = (c * d) * ds.prod + i := by ring
    rw [e1, dig_add (c * d) i ds (tail_pos h)]
    congr 1
    rw [add_comm, Int.add_mul_ediv_right _ _ (ne_of_gt hp), mul_comm c d, Int.add_mul_emod_self_left]

theorem dig_enc : ∀ (ds xs : List Int), List.Forall₂ (fun d x => 0 ≤ x ∧ x < d) ds xs →
    dig (enc ds xs) ds = xs
  | _, _, .nil => rfl
  | d :: ds, x :: xs, .cons hx h => by
    have ⟨h1, h2⟩ := enc_bound ds xs h
    have hpos : ∀ e ∈ ds, 0 < e := by
      intro e he
      have := h
      clear h1 h2 hx
      induction h with
      | nil => simp at he
      | @cons a b l₁ l₂ hab hl ih =>
        rcases List.mem_cons.1 he with rfl | he'
        · omega
        · exact ih he' hl
    have hp : 0 < ds.prod := by omega
    simp only [enc, dig]
    rw [dig_add _ _ _ hpos, dig_enc ds xs h]
    congr 1
    rw [add_comm, Int.add_mul_ediv_right _ _ (ne_of_gt hp), Int.ediv_eq_zero_of_lt h1 h2]
    simp [Int.emod_eq_of_lt hx.1 hx.2]

theorem dig_forall2 (i : Int) : ∀ ds : List Int, (∀ d ∈ ds, 0 < d) →
    List.Forall₂ (fun d x => 0 ≤ x ∧ x < d) ds (dig i ds)
  | [], _ => .nil
  | d :: ds, h => by
    have hd := h d (by simp)
    exact .cons ⟨Int.emod_nonneg _ (ne_of_gt hd), Int.emod_lt_of_pos _ hd⟩ (dig_forall2 i ds (tail_pos h))

theorem dig_lt : ∀ (ds : List Int) (i j : Int), (∀ d ∈ ds, 0 < d) → 0 ≤ i → i < j → j < ds.prod →
    dig i ds < dig j ds
  | [], i, j, _, h0, h1, h2 => by simp at h2; omega
  | d :: ds, i, j, h, h0, h1, h2 => by
    have hp := prod_pos_of (tail_pos h)
    have hd := h d (by simp)
    simp only [List.prod_cons] at h2
    have hjq : j / ds.prod < d := Int.ediv_lt_of_lt_mul hp h2
    have hij : i / ds.prod ≤ j / ds.prod := Int.ediv_le_ediv hp (le_of_lt h1)
    have hi0 : 0 ≤ i / ds.prod := Int.ediv_nonneg h0 (le_of_lt hp)
    simp only [dig]
    rw [Int.emod_eq_of_lt hi0 (by omega), Int.emod_eq_of_lt (by omega) hjq]
    rcases lt_or_eq_of_le hij with hlt | heq
    · exact List.Lex.rel hlt
    · rw [heq]
      have mi : i % ds.prod < j % ds.prod := by
        have a := Int.emod_add_mul_ediv i ds.prod
        have b := Int.emod_add_mul_ediv j ds.prod
        rw [heq] at a; omega
      have ih := dig_lt ds (i % ds.prod) (j % ds.prod) (tail_pos h)
        (Int.emod_nonneg _ (ne_of_gt hp)) mi (Int.emod_lt_of_pos _ hp)
      have ei : dig i ds = dig (i % ds.prod) ds := by
        conv_lhs => rw [← Int.emod_add_mul_ediv i ds.prod, add_comm, mul_comm]
        exact dig_add _ _ _ (tail_pos h)
      have ej : dig j ds = dig (j % ds.prod) ds := by
        conv_lhs => rw [← Int.emod_add_mul_ediv j ds.prod, add_comm, mul_comm]
        exact dig_add _ _ _ (tail_pos h)
      rw [ei, ej]
      exact List.Lex.cons ih

/-! ### The checked computations -/

theorem chk_ok {x : Int} (h : inI32 x) : chk x = .ok x := by simp [chk, h]

theorem mkDims_ok : ∀ axes : List (Int × Int), (∀ ax ∈ axes, inI32 (ax.2 - ax.1)) →
    mkDims axes = .ok (axes.map fun ax => ax.2 - ax.1)
  | [], _ => rfl
  | (b, e) :: axes, h => by
    have h1 := h (b, e) (by simp)
    have ih := mkDims_ok axes (fun ax hax => h ax (by simp [hax]))
    simp only at h1
    simp [mkDims, isub, chk_ok h1, ih, bind, Except.bind, pure, Except.pure]

theorem mkNumElems_ok : ∀ (ds : List Int) (acc : Int), (∀ d ∈ ds, 0 < d) → 0 < acc →
    acc * ds.prod ≤ 2147483647 → mkNumElems acc ds = .ok (acc * ds.prod)
  | [], acc, _, _, _ => by simp [mkNumElems]
  | d :: ds, acc, h, ha, hle => by
    have hp := prod_pos_of (tail_pos h)
    have hd := h d (by simp)
    simp only [List.prod_cons] at hle ⊢
    have h1 : 0 < acc * d := Int.mul_pos ha hd
    have h2 : acc * d * ds.prod ≤ 2147483647 := by rw [mul_assoc]; exact hle
    have h3 : acc * d ≤ acc * d * ds.prod := by nlinarith
    have := mkNumElems_ok ds (acc * d) (tail_pos h) h1 h2
    have hc : inI32 (acc * d) := by unfold inI32; omega
    simp only [mkNumElems, imul, chk_ok hc, bind, Except.bind, this]
    rw [mul_assoc]

theorem mkDimProd_ok : ∀ ds : List Int, (∀ d ∈ ds, 0 < d) → ds.prod ≤ 2147483647 →
    mkDimProd ds = .ok (strides ds)
  | [], _, _ => rfl
  | [_], _, _ => by simp [mkDimProd, strides]
  | d :: d1 :: ds, h, hle => by
    have hle' := prod_le_of h
    have ih := mkDimProd_ok (d1 :: ds) (tail_pos h) (by omega)
    have hp := prod_pos_of (tail_pos h)
    have hc : inI32 (ds.prod * d1) := by
      simp only [List.prod_cons] at hle' hp hle
      unfold inI32; rw [mul_comm]; constructor <;> omega
    simp only [mkDimProd, ih, strides, bind, Except.bind, vget, imul, chk_ok hc,
      List.getElem?_cons_zero, pure, Except.pure, List.prod_cons]
    rw [mul_comm]

/-- What a successful construction looks like. -/
def good (axes : List (Int × Int)) : Box :=
  { lowEnd := axes.map (·.1)
    dims := axes.map fun ax => ax.2 - ax.1
    dimProd := strides (axes.map fun ax => ax.2 - ax.1)
    numElems := volume axes }

theorem ext_pos {axes : List (Int × Int)} (hne : NonEmptyAxes axes) :
    ∀ d ∈ axes.map (fun ax => ax.2 - ax.1), 0 < d := by
  intro d hd
  obtain ⟨ax, hax, rfl⟩ := List.mem_map.1 hd
  have := hne ax hax; omega

theorem ext_le {axes : List (Int × Int)} (hne : NonEmptyAxes axes) (hv : volume axes ≤ 2147483647) :
    ∀ ax ∈ axes, ax.2 - ax.1 ≤ 2147483647 := by
  induction axes with
  | nil => simp
  | cons a axes ih =>
    have hp := ext_pos hne
    have hne' : NonEmptyAxes axes := fun ax hax => hne ax (by simp [hax])
    have h1 := prod_pos_of (ext_pos hne')
    have ha := hne a (by simp)
    have hv' : (a.2 - a.1) * volume axes ≤ 2147483647 := by simpa [volume] using hv
    have hpos : 0 < volume axes := h1
    intro ax hax
    rcases List.mem_cons.1 hax with rfl | hax
    · nlinarith
    · refine ih hne' ?_ ax hax
      nlinarith

theorem new_ok {axes : List (Int × Int)} (hne : NonEmptyAxes axes) (hv : volume axes ≤ 2147483647) :
    new axes = .ok (good axes) := by
  have hpos := ext_pos hne
  have hpr := prod_pos_of hpos
  have h1 := mkDims_ok axes (fun ax hax => by
    have := ext_le hne hv ax hax
    have := hne ax hax
    unfold inI32; omega)
  have h2 := mkNumElems_ok (axes.map fun ax => ax.2 - ax.1) 1 hpos (by norm_num) (by simpa [volume] using hv)
  have h3 := mkDimProd_ok (axes.map fun ax => ax.2 - ax.1) hpos (by simpa [volume] using hv)
  simp only [new, h1, h2, h3, bind, Except.bind, pure, Except.pure, one_mul]
  rfl

theorem getElementLoop_ok (i : Int) (h0 : 0 ≤ i) (hi : i ≤ 2147483647) :
    ∀ axes : List (Int × Int), NonEmptyAxes axes → IntAxes axes →
    (∀ ax ∈ axes, ax.2 - ax.1 ≤ 2147483647) →
    getElementLoop i (axes.map (·.1)) (axes.map fun ax => ax.2 - ax.1)
      (strides (axes.map fun ax => ax.2 - ax.1)) =
      .ok (List.zipWith (· + ·) (axes.map (·.1)) (dig i (axes.map fun ax => ax.2 - ax.1)))
  | [], _, _, _ => by simp [getElementLoop, dig]
  | (b, e) :: axes, hne, hint, hle => by
    have hpos := ext_pos hne
    have htp := tail_pos hpos
    have hp := prod_pos_of htp
    have ih := getElementLoop_ok i h0 hi axes (fun ax hax => hne ax (by simp [hax]))
      (fun ax hax => hint ax (by simp [hax])) (fun ax hax => hle ax (by simp [hax]))
    have hbe := hne (b, e) (by simp)
    have hib := hint (b, e) (by simp)
    simp only at hbe hib
    set P := (axes.map fun ax => ax.2 - ax.1).prod with hP
    have hq0 : 0 ≤ i / P := Int.ediv_nonneg h0 (le_of_lt hp)
    have hqle : i / P ≤ i := Int.ediv_le_self _ h0
    have e1 : i.tdiv P = i / P := Int.tdiv_eq_ediv_of_nonneg h0
    have e2 : (i / P).tmod (e - b) = (i / P) % (e - b) := Int.tmod_eq_emod_of_nonneg hq0
    have e3 : (i / P).tdiv (e - b) = (i / P) / (e - b) := Int.tdiv_eq_ediv_of_nonneg hq0
    have hr0 := Int.emod_nonneg (i / P) (show e - b ≠ 0 by omega)
    have hr1 := Int.emod_lt_of_pos (i / P) (show 0 < e - b by omega)
    have h4 : (i / P) / (e - b) ≤ i / P := Int.ediv_le_self _ hq0
    have h5 : 0 ≤ (i / P) / (e - b) := Int.ediv_nonneg hq0 (by omega)
    have c1 : inI32 (i / P) := by unfold inI32; omega
    have c2 : inI32 ((i / P) / (e - b)) := by unfold inI32; omega
    have c3 : inI32 (b + (i / P) % (e - b)) := by unfold inI32; omega
    have hP0 : P ≠ 0 := by omega
    have hd0 : e - b ≠ 0 := by omega
    simp only [List.map_cons, strides, getElementLoop, dig, ← hP]
    simp only [idiv, imod, iadd, if_neg hP0, if_neg hd0, e1, e2, e3, chk_ok c1, if_pos c2, chk_ok c3,
      bind, Except.bind, ih, pure, Except.pure, List.zipWith_cons_cons]

/-- prefix sums of a box's index computation stay in the int range -/
theorem getIndexLoop_ok : ∀ (axes : List (Int × Int)) (t : List Int) (acc : Int), InBox axes t →
    0 ≤ acc → acc + volume axes ≤ 2147483648 →
    getIndexLoop acc (axes.map (·.1)) (strides (axes.map fun ax => ax.2 - ax.1)) t =
      .ok (acc + enc (axes.map fun ax => ax.2 - ax.1) (List.zipWith (fun x l => x - l) t (axes.map (·.1))))
  | [], _, acc, h, _, _ => by cases h; simp [getIndexLoop, enc]
  | (b, e) :: axes, x :: xs, acc, .cons hx h, ha, hv => by
    have hbe : b ≤ x ∧ x < e := hx
    set ds := axes.map (fun ax => ax.2 - ax.1) with hds
    have hpos : 0 < ds.prod := by
      refine prod_pos_of ?_
      refine ext_pos ?_
      intro ax hax
      clear hv ha hds
      induction h with
      | nil => simp at hax
      | @cons a1 b1 l₁ l₂ hab hl ih =>
        rcases List.mem_cons.1 hax with rfl | hax
        · omega
        · exact ih hax
    have hvol : volume ((b, e) :: axes) = (e - b) * ds.prod := by simp [volume, hds]
    rw [hvol] at hv
    have h1 : (x - b) * ds.prod + ds.prod ≤ (e - b) * ds.prod := by nlinarith [hbe.2]
    have h2 : 0 ≤ (x - b) * ds.prod := Int.mul_nonneg (by omega) (le_of_lt hpos)
    have h3 : x - b ≤ (x - b) * ds.prod := by nlinarith [hbe.1]
    have c1 : inI32 (x - b) := by unfold inI32; omega
    have c2 : inI32 ((x - b) * ds.prod) := by unfold inI32; omega
    have c3 : inI32 (acc + (x - b) * ds.prod) := by unfold inI32; omega
    have ih := getIndexLoop_ok axes xs (acc + (x - b) * ds.prod) h (by omega) (by
      have : volume axes = ds.prod := rfl
      omega)
    simp only [List.map_cons, strides, getIndexLoop, isub, imul, iadd, ← hds, chk_ok c1, chk_ok c2,
      chk_ok c3, bind, Except.bind, List.zipWith_cons_cons, enc]
    rw [ih, add_assoc]

theorem inbox_zip {axes : List (Int × Int)} {xs : List Int}
    (h : List.Forall₂ (fun d x => 0 ≤ x ∧ x < d) (axes.map fun ax => ax.2 - ax.1) xs) :
    InBox axes (List.zipWith (· + ·) (axes.map (·.1)) xs) ∧
    List.zipWith (fun x l => x - l) (List.zipWith (· + ·) (axes.map (·.1)) xs) (axes.map (·.1)) = xs := by
  induction axes generalizing xs with
  | nil => cases h; exact ⟨.nil, rfl⟩
  | cons a axes ih =>
    cases h with
    | cons hx h =>
      obtain ⟨h1, h2⟩ := ih h
      simp only at hx
      refine ⟨.cons (by simp only; omega) h1, ?_⟩
      simp only [List.map_cons, List.zipWith_cons_cons, h2]
      congr 1; omega

theorem inbox_unzip {axes : List (Int × Int)} {t : List Int} (h : InBox axes t) :
    List.Forall₂ (fun d x => 0 ≤ x ∧ x < d) (axes.map fun ax => ax.2 - ax.1)
      (List.zipWith (fun x l => x - l) t (axes.map (·.1))) ∧
    List.zipWith (· + ·) (axes.map (·.1)) (List.zipWith (fun x l => x - l) t (axes.map (·.1))) = t := by
  induction h with
  | nil => exact ⟨.nil, rfl⟩
  | @cons a x axes t hx h ih =>
    obtain ⟨h1, h2⟩ := ih
    refine ⟨.cons (by simp only; omega) h1, ?_⟩
    simp only [List.map_cons, List.zipWith_cons_cons, h2]
    congr 1; omega

theorem zip_lt : ∀ (ls xs ys : List Int), xs.length = ls.length → ys.length = ls.length → xs < ys →
    List.zipWith (· + ·) ls xs < List.zipWith (· + ·) ls ys
  | [], [], [], _, _, h => by exact absurd h (lt_irrefl _)
  | l :: ls, x :: xs, y :: ys, hx, hy, h => by
    simp only [List.length_cons, add_left_inj] at hx hy
    simp only [List.zipWith_cons_cons]
    rcases List.cons_lt_cons_iff.1 h with h | ⟨rfl, h'⟩
    · exact List.Lex.rel (by omega)
    · exact List.Lex.cons (zip_lt ls xs ys hx hy h')

end Sg.BoxIterator
