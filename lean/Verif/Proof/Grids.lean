import Verif.Model.Grids
import Verif.Proof.Cxx
import Mathlib.Tactic.Ring
import Mathlib.Tactic.Linarith
namespace Sg.Grids
variable {F : Type}

/-- State of the filling loop when rows `< i` and the first `j` columns of row `i` are written. -/
def FillInv (n1 : Nat) (f : Nat → Nat → F × F) (c : List F × List F) (i j : Nat)
    (s : (List F × List F) × Nat) : Prop :=
  s.2 = i * n1 + j ∧ s.1.1.length = c.1.length ∧ s.1.2.length = c.2.length ∧
  (∀ a b, b < n1 → a * n1 + b < i * n1 + j →
    s.1.1[a * n1 + b]? = some (f a b).1 ∧ s.1.2[a * n1 + b]? = some (f a b).2) ∧
  (∀ k, i * n1 + j ≤ k → s.1.1[k]? = c.1[k]? ∧ s.1.2[k]? = c.2[k]?)

theorem rowcol_inj {n1 a b i j : Nat} (hb : b < n1) (hj : j < n1) (h : a * n1 + b = i * n1 + j) :
    a = i ∧ b = j := by
  have h1 : (a * n1 + b) / n1 = a := by
    rw [Nat.add_comm, Nat.add_mul_div_right _ _ (by omega), Nat.div_eq_of_lt hb, Nat.zero_add]
  have h2 : (i * n1 + j) / n1 = i := by
    rw [Nat.add_comm, Nat.add_mul_div_right _ _ (by omega), Nat.div_eq_of_lt hj, Nat.zero_add]
  have : a = i := by rw [← h1, ← h2, h]
  subst this
  exact ⟨rfl, by omega⟩

theorem row_lt {n0 n1 i j : Nat} (hi : i < n0) (hj : j < n1) : i * n1 + j < n0 * n1 := by
  have : (i + 1) * n1 ≤ n0 * n1 := Nat.mul_le_mul_right _ hi
  rw [Nat.add_mul] at this; omega

theorem fillNodes_spec (n0 n1 : Nat) (f : Nat → Nat → F × F) (c : List F × List F)
    (h0 : n0 * n1 ≤ c.1.length) (h1 : n0 * n1 ≤ c.2.length) :
    ∃ r, fillNodes n0 n1 f c = .ok r ∧ r.1.length = c.1.length ∧ r.2.length = c.2.length ∧
      (∀ i j, i < n0 → j < n1 → r.1[i * n1 + j]? = some (f i j).1 ∧ r.2[i * n1 + j]? = some (f i j).2) ∧
      (∀ k, n0 * n1 ≤ k → r.1[k]? = c.1[k]? ∧ r.2[k]? = c.2[k]?) := by
  obtain ⟨s, hs, hinv⟩ := forN_inv (fun i s => FillInv n1 f c i 0 s)
    (fun i s => forN n1 s fun j (s : (List F × List F) × Nat) => do
      let a ← vset s.1.1 s.2 (f i j).1
      let b ← vset s.1.2 s.2 (f i j).2
      .ok ((a, b), s.2 + 1)) n0 (c, 0)
    ⟨by simp, rfl, rfl, fun a b _ h => by omega, fun k _ => ⟨rfl, rfl⟩⟩
    (by
      intro i s hi hP
      obtain ⟨s', hs', hI⟩ := forN_inv (fun j s => FillInv n1 f c i j s)
        (fun j (s : (List F × List F) × Nat) => do
          let a ← vset s.1.1 s.2 (f i j).1
          let b ← vset s.1.2 s.2 (f i j).2
          .ok ((a, b), s.2 + 1)) n1 s hP
        (by
          rintro j ⟨⟨u, v⟩, k⟩ hj ⟨e0, e1, e2, e3, e4⟩
          simp only at e0 e1 e2 e3 e4
          have hlt := row_lt hi hj
          subst e0
          refine ⟨((u.set (i * n1 + j) (f i j).1, v.set (i * n1 + j) (f i j).2), i * n1 + j + 1), ?_, ?_⟩
          · simp only [vset_ok (show i * n1 + j < u.length by omega),
              vset_ok (show i * n1 + j < v.length by omega), bind, Except.bind]
          · refine ⟨rfl, by simpa using e1, by simpa using e2, ?_, ?_⟩
            · intro a b hb hab
              by_cases hc : a * n1 + b = i * n1 + j
              · obtain ⟨rfl, rfl⟩ := rowcol_inj hb hj hc
                simp only [List.getElem?_set_self (show a * n1 + b < u.length by omega),
                  List.getElem?_set_self (show a * n1 + b < v.length by omega), and_self]
              · simp only [List.getElem?_set_ne (Ne.symm hc)]
                exact e3 a b hb (by omega)
            · intro k hk
              simp only [List.getElem?_set_ne (show i * n1 + j ≠ k by omega)]
              exact e4 k (by omega))
      refine ⟨s', hs', ?_⟩
      have e : i * n1 + n1 = (i + 1) * n1 + 0 := by ring
      obtain ⟨e0, e1, e2, e3, e4⟩ := hI
      exact ⟨by rw [e0, e], e1, e2, fun a b hb hab => e3 a b hb (by omega), fun k hk => e4 k (by omega)⟩)
  obtain ⟨e0, e1, e2, e3, e4⟩ := hinv
  refine ⟨s.1, ?_, e1, e2, fun i j hi hj => e3 i j hj (by have := row_lt hi hj; omega), fun k hk => e4 k (by omega)⟩
  unfold fillNodes
  simp only [bind, Except.bind] at hs ⊢
  rw [hs]

/-! ### tripolar -/
section tripolar
variable [Add F] [Sub F] [Mul F] [Div F] [Neg F] [NatCast F] [IntCast F] [Trig F]
open Trig

/-- value stored for the unscaled node `x` -/
def scaled (x : F) : F := x * (((180 : Nat) : F) / pi)

/-- Which entries hold which node function. -/
def Holds (d0 : Nat) (h : Nat → Nat → Option (F × F)) (n : Nat) (s : List F × List F) : Prop :=
  s.1.length = n ∧ s.2.length = n ∧
  ∀ i j x, i < d0 → h i j = some x → s.1[j * d0 + i]? = some (scaled x.1) ∧ s.2[j * d0 + i]? = some (scaled x.2)

theorem writeNode_ok (d0 d1 : Nat) (g : Nat → Int → F × F) (h : Nat → Nat → Option (F × F)) (i j : Nat)
    (s : List F × List F) (hi : i < d0) (hj : j < d1) (hs : Holds d0 h (d1 * d0) s) :
    ∃ s', writeNode d0 g i (j : Int) s = .ok s' ∧
      Holds d0 (fun a b => if a = i ∧ b = j then some (g i j) else h a b) (d1 * d0) s' := by
  obtain ⟨h1, h2, h3⟩ := hs
  have hlt := row_lt hj hi
  have hk : ((i : Int) + (j : Int) * (d0 : Int)) = ((j * d0 + i : Nat) : Int) := by push_cast; ring
  refine ⟨(s.1.set (j * d0 + i) (scaled (g i j).1), s.2.set (j * d0 + i) (scaled (g i j).2)), ?_, ?_⟩
  · unfold writeNode putScaled
    simp only [hk, Int.natCast_nonneg, if_true, Int.toNat_natCast]
    rw [vset_ok (by omega), vset_ok (by omega)]
    rfl
  · refine ⟨by simpa using h1, by simpa using h2, ?_⟩
    intro a b x ha hx
    dsimp only at hx ⊢
    by_cases hc : b * d0 + a = j * d0 + i
    · obtain ⟨rfl, rfl⟩ := rowcol_inj ha hi hc
      simp only [and_self, if_true, Option.some.injEq] at hx
      subst hx
      rw [List.getElem?_set_self (by omega), List.getElem?_set_self (by omega)]
      exact ⟨rfl, rfl⟩
    · have hne : ¬ (a = i ∧ b = j) := by rintro ⟨rfl, rfl⟩; exact hc rfl
      rw [if_neg hne] at hx
      rw [List.getElem?_set_ne (Ne.symm hc), List.getElem?_set_ne (Ne.symm hc)]
      exact h3 a b x ha hx

theorem Holds.mono {d0 n : Nat} {h h' : Nat → Nat → Option (F × F)} {s : List F × List F}
    (hs : Holds d0 h n s) (hh : ∀ i j x, i < d0 → h' i j = some x → h i j = some x) : Holds d0 h' n s :=
  ⟨hs.1, hs.2.1, fun i j x hi hx => hs.2.2 i j x hi (hh i j x hi hx)⟩

/-- A block of rows `[j0, j0+nr)` and columns `[i0, i0+nc)`. -/
theorem block_ok (d0 d1 : Nat) (g : Nat → Int → F × F) (h : Nat → Nat → Option (F × F)) (i0 nc j0 nr : Nat)
    (s : List F × List F) (hi : i0 + nc ≤ d0) (hj : j0 + nr ≤ d1) (hs : Holds d0 h (d1 * d0) s) :
    ∃ s', forN nr s (fun k s => forFrom i0 nc s fun i s => writeNode d0 g i ((j0 : Int) + (k : Int)) s) = .ok s' ∧
      Holds d0 (fun a b => if i0 ≤ a ∧ a < i0 + nc ∧ j0 ≤ b ∧ b < j0 + nr then some (g a b) else h a b)
        (d1 * d0) s' := by
  obtain ⟨s', e, hI⟩ := forN_inv (fun k s => Holds d0
      (fun a b => if i0 ≤ a ∧ a < i0 + nc ∧ j0 ≤ b ∧ b < j0 + k then some (g a b) else h a b) (d1 * d0) s)
    (fun k s => forFrom i0 nc s fun i s => writeNode d0 g i ((j0 : Int) + (k : Int)) s) nr s
    (hs.mono (by
      intro i j x _ hx
      rw [if_neg (by omega)] at hx; exact hx))
    (by
      intro k s hk hP
      obtain ⟨s', e, hI⟩ := forFrom_inv (fun i s => Holds d0
          (fun a b => if (i0 ≤ a ∧ a < i0 + nc ∧ j0 ≤ b ∧ b < j0 + k) ∨ (i0 ≤ a ∧ a < i ∧ b = j0 + k)
            then some (g a b) else h a b) (d1 * d0) s)
        (fun i s => writeNode d0 g i ((j0 : Int) + (k : Int)) s) nc i0 s
        (hP.mono (by
          intro i j x _ hx
          split at hx
          · rename_i hc
            rw [if_pos (by omega)]; exact hx
          · rename_i hc
            rw [if_neg (by omega)]; exact hx))
        (by
          intro i s h1 h2 hP
          obtain ⟨s', e, hI⟩ := writeNode_ok d0 d1 g _ i (j0 + k) s (by omega) (by omega) hP
          refine ⟨s', by push_cast at e; exact e, hI.mono ?_⟩
          intro a b x _ hx
          by_cases hab : a = i ∧ b = j0 + k
          · obtain ⟨rfl, rfl⟩ := hab
            rw [if_pos ⟨rfl, rfl⟩]
            rw [if_pos (by omega)] at hx
            exact hx
          · rw [if_neg hab]
            split at hx
            · rename_i hc
              rw [if_pos (by omega)]; exact hx
            · rename_i hc
              rw [if_neg (by omega)]; exact hx)
      refine ⟨s', e, hI.mono ?_⟩
      intro a b x _ hx
      split at hx
      · rename_i hc
        rw [if_pos (by omega)]; exact hx
      · rename_i hc
        rw [if_neg (by omega)]; exact hx)
  exact ⟨s', e, hI⟩

/-- The unscaled coordinates of node (i,j) as written by `getGrid`. -/
def tripolarNode (d0 d1 cap : Nat) (i j : Nat) : F × F :=
  if j < cap then lowerNode d0 d1 i j
  else if i < d0 / 2 then capNodeWest d0 d1 cap i j
  else capNodeEast d0 d1 cap i j

theorem getGrid_ok (t : Tripolar F) (cap : Nat) (hcap : t.capLatIndex = (cap : Int)) (hle : cap ≤ t.dims0)
    (hl : t.lats.length = t.dims0 * t.dims1) (hl' : t.lons.length = t.dims0 * t.dims1) :
    ∃ t' : Tripolar F, t.getGrid = .ok (t.dims1, t.dims0, t') ∧
      t'.lats.length = t.dims0 * t.dims1 ∧ t'.lons.length = t.dims0 * t.dims1 ∧
      ∀ i j, i < t.dims1 → j < t.dims0 →
        t'.lons[j * t.dims1 + i]? = some (scaled (tripolarNode t.dims1 t.dims0 cap i j : F × F).1) ∧
        t'.lats[j * t.dims1 + i]? = some (scaled (tripolarNode t.dims1 t.dims0 cap i j : F × F).2) := by
  set d1 := t.dims0 with hd1
  set d0 := t.dims1 with hd0
  obtain ⟨s1, e1, H1⟩ := block_ok d0 d1 (lowerNode (F := F) d0 d1) (fun _ _ => none) 0 d0 0 cap (t.lons, t.lats)
    (by omega) (by omega) ⟨hl', hl, by simp⟩
  obtain ⟨s2, e2, H2⟩ := block_ok d0 d1 (capNodeWest (F := F) d0 d1 cap) _ 0 (d0 / 2) cap (d1 - cap) s1
    (by omega) (by omega) H1
  obtain ⟨s3, e3, H3⟩ := block_ok d0 d1 (capNodeEast (F := F) d0 d1 cap) _ (d0 / 2) (d0 - d0 / 2) cap (d1 - cap) s2
    (by omega) (by omega) H2
  refine ⟨{ t with lons := s3.1, lats := s3.2 }, ?_, H3.2.1, H3.1, ?_⟩
  · unfold Tripolar.getGrid
    have hn : ((t.dims0 : Int) - (cap : Int)).toNat = d1 - cap := by omega
    simp only [hcap, Int.toNat_natCast, hn, bind, Except.bind]
    simp only [forN, Nat.cast_zero, zero_add] at e1 e2 e3 ⊢
    have e1' : (forFrom 0 cap (t.lons, t.lats) fun j s => forFrom 0 t.dims1 s fun i s =>
        writeNode t.dims1 (lowerNode t.dims1 t.dims0) i (j : Int) s) = .ok s1 := by
      simpa using e1
    rw [e1']
    dsimp only
    rw [e2]
    dsimp only
    rw [e3]
  · intro i j hi hj
    refine H3.2.2 i j _ hi ?_
    dsimp only
    unfold tripolarNode
    by_cases hc : j < cap
    · rw [if_neg (by omega), if_neg (by omega), if_pos (by omega), if_pos hc]
    · rw [if_neg hc]
      by_cases hw : i < d0 / 2
      · rw [if_neg (by omega), if_pos (by omega), if_pos hw]
      · rw [if_pos (by omega), if_neg hw]

end tripolar
end Sg.Grids
