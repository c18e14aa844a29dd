import Verif.Props.NodeRounding
/-
Property C162: larger data give larger values, in rounded arithmetic.
-/
namespace Sg.Props
open Sg Sg.FindPoint Sg.Spec Sg.LinearSolve Sg.NodeInterp

variable {rnd : ℝ → ℝ} {n : Nat}

/-- The computed weights of the sides are not negative. -/
theorem side_nonneg {N : Nat} (hN : KeepsInts rnd N) (hm : rnd (-1) = -1) (dims : Fin n → Nat) (hd : GoodDims dims) (d : Fin n → Fl rnd)
    (h : InGrid dims (vals d)) (i : Fin n) (hi : dims i ≤ N) (b : Nat) (hb : b < 2) : 0 ≤ (sideFl dims d i b).val := by
  obtain ⟨h0, h1, h2⟩ := cellLo_bounds dims hd (vals d) h i
  unfold sideFl axisWeight
  dsimp only
  set k := cellLo dims (vals d) i with hk
  have hdv : (d i).val = vals d i := rfl
  have hc : (((k : Int) + (b : Int) : Int) : Fl rnd).val = (k : ℝ) + b := by
    rw [Fl.intCast_val]
    have := hN.int (k + b) (by omega)
    push_cast at this ⊢
    exact this
  have hc1 : rnd ((k : ℝ) + b + 1) = (k : ℝ) + b + 1 := by
    have := hN.int (k + b + 1) (by omega)
    push_cast at this
    exact this
  have hb0 : (0 : ℝ) ≤ b := Nat.cast_nonneg b
  have hb1 : (b : ℝ) ≤ 1 := by exact_mod_cast Nat.lt_succ_iff.1 hb
  split
  · rw [Fl.sub_val, Fl.add_val, hc]
    show 0 ≤ rnd (rnd ((k : ℝ) + b + 1) - (d i).val)
    rw [hc1, hdv]
    exact hN.nonneg (by linarith)
  · rw [Fl.add_val, Fl.sub_val, hc]
    show 0 ≤ rnd (rnd ((d i).val - ((k : ℝ) + b)) + 1)
    refine hN.nonneg ?_
    have : rnd (-1) ≤ rnd ((d i).val - ((k : ℝ) + b)) := hN.mono (by rw [hdv]; linarith)
    linarith

theorem weight_nonneg {N : Nat} (hN : KeepsInts rnd N) (hm : rnd (-1) = -1) (dims : Fin n → Nat) (hd : GoodDims dims) (d : Fin n → Fl rnd)
    (h : InGrid dims (vals d)) (hi : ∀ i, dims i ≤ N) (j : Nat) : 0 ≤ (weightFl dims d j).val := by
  unfold weightFl
  have : ∀ (l : List (Fin n)) (w : Fl rnd), 0 ≤ w.val → 0 ≤ (l.foldl (fun w i => w * sideFl dims d i (bit n j i)) w).val := by
    intro l
    induction l with
    | nil => exact fun w hw => hw
    | cons i l ih =>
      intro w hw
      exact ih _ (hN.nonneg (mul_nonneg hw (side_nonneg hN hm dims hd d h i (hi i) _ (Nat.mod_lt _ (by norm_num)))))
  exact this _ _ (zero_le_one (α := ℝ))

/-- Sums of products with factors that are not negative keep the order. -/
theorem dot_mono (hmono : Monotone rnd) {ι : Type} (w f f' : ι → Fl rnd) (l : List ι) (hw : ∀ j ∈ l, 0 ≤ (w j).val) (hf : ∀ j ∈ l, (f j).val ≤ (f' j).val) :
    (dot (l.map fun j => (w j, f j))).val ≤ (dot (l.map fun j => (w j, f' j))).val := by
  unfold dot
  rw [List.foldl_map, List.foldl_map]
  have : ∀ (l : List ι), (∀ j ∈ l, 0 ≤ (w j).val) → (∀ j ∈ l, (f j).val ≤ (f' j).val) → ∀ a a' : Fl rnd, a.val ≤ a'.val →
      (l.foldl (fun acc j => acc + w j * f j) a).val ≤ (l.foldl (fun acc j => acc + w j * f' j) a').val := by
    intro l
    induction l with
    | nil => exact fun _ _ a a' h => h
    | cons j l ih =>
      intro hw hf a a' h
      refine ih (fun j hj => hw j (List.mem_cons_of_mem _ hj)) (fun j hj => hf j (List.mem_cons_of_mem _ hj)) _ _ ?_
      exact hmono (add_le_add h (hmono (mul_le_mul_of_nonneg_left (hf j List.mem_cons_self) (hw j List.mem_cons_self))))
  exact this l hw hf _ _ le_rfl

/-- **C162** In any rounded arithmetic that keeps the order and leaves alone -1 and the integers up to the sizes of the grid: at a position inside of the grid, data that
are nowhere smaller at the corners of its cell give a value that is not smaller. -/
theorem C162_interp {N : Nat} (hN : KeepsInts rnd N) (hm : rnd (-1) = -1) (dims : Fin n → Nat) (hd : GoodDims dims)
    (hi : ∀ i, dims i ≤ N) (d : Fin n → Fl rnd) (h : InGrid dims (vals d)) (f f' : List (Fl rnd)) (hlen : f.length = ∏ i, dims i)
    (hlen' : f'.length = ∏ i, dims i)
    (hf : ∀ m v v', IsCorner dims (vals d) m → f[rowMajor dims m]? = some v → f'[rowMajor dims m]? = some v' → v.val ≤ v'.val) :
    ∃ v v', interp dims d f = .ok v ∧ interp dims d f' = .ok v' ∧ v.val ≤ v'.val := by
  refine ⟨_, _, interp_fl dims hd d h f hlen, interp_fl dims hd d h f' hlen', ?_⟩
  refine dot_mono hN.mono (weightFl dims d) _ _ _ (fun j _ => weight_nonneg hN hm dims hd d h hi j) fun j _ => ?_
  have hlt := rowMajor_lt dims _ (cornerNode_lt dims hd (vals d) h j)
  rw [List.getD_eq_getElem?_getD, List.getD_eq_getElem?_getD, List.getElem?_eq_getElem (by omega), List.getElem?_eq_getElem (by omega)]
  exact hf _ _ _ (cornerNode_isCorner dims (vals d) j) (List.getElem?_eq_getElem (by omega)) (List.getElem?_eq_getElem (by omega))

/-- **C162** The same for the values `apply` writes, for any source grid, destination nodes and solver: data that are nowhere smaller give values that are nowhere smaller. -/
theorem C162_apply {N : Nat} (hN : KeepsInts rnd N) (hm : rnd (-1) = -1) (h31 : 2 ^ 31 ≤ N) (g : Gels (Fl rnd)) (hg : KeepsSizes g)
    (nitermax : Int) (tolpos : Fl rnd) (dims : Fin 2 → Nat) (hd : ∀ i, 2 ≤ dims i ∧ dims i ≤ 2 ^ 30) (per : Fin 2 → Int)
    (coords : Fin 2 → Nat → Fl rnd) (dd : Fin 2 → Nat) (dc : Fin 2 → Nat → Fl rnd) (src src' dst dst' : List (Fl rnd))
    (hsrc : src.length = dims 0 * dims 1) (hsrc' : src'.length = dims 0 * dims 1) (hdst : dst.length = dd 0 * dd 1) (hdst' : dst'.length = dd 0 * dd 1)
    (hs : List.Forall₂ (fun a b => a.val ≤ b.val) src src') (ht : List.Forall₂ (fun a b => a.val ≤ b.val) dst dst') :
    ∃ o f f', (((new nitermax tolpos).setSrcGrid dims per coords).setDstGrid dd dc).computeWeights g = .ok o ∧ o.apply src dst = .ok f ∧
      o.apply src' dst' = .ok f' ∧ List.Forall₂ (fun a b => a.val ≤ b.val) f f' := by
  obtain ⟨o, ho, htab, hent⟩ := table_fl hN h31 g hg nitermax tolpos dims hd per coords dd dc
  have hgd : GoodDims dims := fun i => ⟨(hd i).1, (hd i).2.trans (by norm_num)⟩
  have hfit : ∀ i, dims i ≤ N := fun i => (hd i).2.trans (by omega)
  have hprod : ∏ i, dims i = dims 0 * dims 1 := Fin.prod_univ_two _
  obtain ⟨f, ha, hl, h3, h4⟩ := apply_ok o src dst htab.keys (by rw [hdst]; exact htab.dst) (by rw [hsrc]; exact htab.src)
  obtain ⟨f', ha', hl', h3', h4'⟩ := apply_ok o src' dst' htab.keys (by rw [hdst']; exact htab.dst) (by rw [hsrc']; exact htab.src)
  refine ⟨o, f, f', ho, ha, ha', ?_⟩
  rw [List.forall₂_iff_get] at hs ht ⊢
  refine ⟨by rw [hl, hl']; exact ht.1, fun k hk hk' => ?_⟩
  by_cases hin : ∃ iw, (k, iw) ∈ o.weights
  · obtain ⟨iw, hiw⟩ := hin
    obtain ⟨d, hgrid, hw, -⟩ := hent k iw hiw
    have e1 := h3 (k, iw) hiw
    have e2 := h3' (k, iw) hiw
    dsimp only at e1 e2
    rw [List.getElem?_eq_getElem hk, Option.some_inj] at e1
    rw [List.getElem?_eq_getElem hk', Option.some_inj] at e2
    rw [List.get_eq_getElem, List.get_eq_getElem]
    dsimp only
    rw [e1, e2]
    obtain ⟨v, v', i1, i2, hle⟩ := C162_interp hN hm dims hgd hfit d hgrid src src' (by rw [hprod]; exact hsrc) (by rw [hprod]; exact hsrc')
      (fun m v v' _ hv hv' => by
        obtain ⟨q1, rfl⟩ := List.getElem?_eq_some_iff.1 hv
        obtain ⟨q2, rfl⟩ := List.getElem?_eq_some_iff.1 hv'
        exact hs.2 _ q1 q2)
    have ev : ∀ s : List (Fl rnd), s.length = dims 0 * dims 1 → interp dims d s = .ok (entryVal s iw) := by
      intro s hs
      rw [interp_fl dims hgd d hgrid s (by rw [hprod]; exact hs)]
      rw [getSrc_fl dims hgd d hgrid, Except.ok.injEq] at hw
      rw [← hw]
      unfold entryVal dot
      rw [List.foldl_map, List.foldl_map]
      rfl
    rw [ev src hsrc, Except.ok.injEq] at i1
    rw [ev src' hsrc', Except.ok.injEq] at i2
    rw [i1, i2]
    exact hle
  · have e1 := h4 k fun e he hek => hin ⟨e.2, by rw [← hek]; exact he⟩
    have e2 := h4' k fun e he hek => hin ⟨e.2, by rw [← hek]; exact he⟩
    have k1 : k < dst.length := by rw [← hl]; exact hk
    have k2 : k < dst'.length := by rw [← hl']; exact hk'
    rw [List.getElem?_eq_getElem hk, List.getElem?_eq_getElem k1, Option.some_inj] at e1
    rw [List.getElem?_eq_getElem hk', List.getElem?_eq_getElem k2, Option.some_inj] at e2
    rw [List.get_eq_getElem, List.get_eq_getElem]
    dsimp only
    rw [e1, e2]
    exact ht.2 k k1 k2

theorem nearest_neg_one {p : Nat} (hp : 1 ≤ p) : nearest p (-1) = -1 := by
  have := nearest_exact (p := p) (m := -1) (k := 0) (by
    rw [abs_neg, abs_one]
    exact one_lt_pow₀ (by norm_num) (by omega))
  simpa using this

/-- **C162** In double precision. -/
theorem C162_double (g : Gels (Fl (nearest 53))) (hg : KeepsSizes g)
    (nitermax : Int) (tolpos : Fl (nearest 53)) (dims : Fin 2 → Nat) (hd : ∀ i, 2 ≤ dims i ∧ dims i ≤ 2 ^ 30) (per : Fin 2 → Int)
    (coords : Fin 2 → Nat → Fl (nearest 53)) (dd : Fin 2 → Nat) (dc : Fin 2 → Nat → Fl (nearest 53)) (src src' dst dst' : List (Fl (nearest 53)))
    (hsrc : src.length = dims 0 * dims 1) (hsrc' : src'.length = dims 0 * dims 1) (hdst : dst.length = dd 0 * dd 1) (hdst' : dst'.length = dd 0 * dd 1)
    (hs : List.Forall₂ (fun a b => a.val ≤ b.val) src src') (ht : List.Forall₂ (fun a b => a.val ≤ b.val) dst dst') :
    ∃ o f f', (((new nitermax tolpos).setSrcGrid dims per coords).setDstGrid dd dc).computeWeights g = .ok o ∧ o.apply src dst = .ok f ∧
      o.apply src' dst' = .ok f' ∧ List.Forall₂ (fun a b => a.val ≤ b.val) f f' :=
  C162_apply (nearest_ints 53 (by norm_num)) (nearest_neg_one (by norm_num)) (by norm_num) g hg nitermax tolpos dims hd per coords dd dc src src' dst dst'
    hsrc hsrc' hdst hdst' hs ht

/-- The hypotheses are met: one cell of the unit square, a node at its corner, data 1, 2, 3, 4 and 1, 2, 5, 7. -/
example : ∃ o f f', (((new 2 (⟨1⟩ : Fl (nearest 53))).setSrcGrid ![2, 2] ![0, 0] squareNodes).setDstGrid ![1, 1] (fun _ _ => ⟨0⟩)).computeWeights stepBack = .ok o ∧
    o.apply [⟨1⟩, ⟨2⟩, ⟨3⟩, ⟨4⟩] [⟨0⟩] = .ok f ∧ o.apply [⟨1⟩, ⟨2⟩, ⟨5⟩, ⟨7⟩] [⟨0⟩] = .ok f' ∧ List.Forall₂ (fun a b => a.val ≤ b.val) f f' :=
  C162_double stepBack (fun r => ⟨rfl, by simp [stepBack]⟩) 2 ⟨1⟩ ![2, 2] (by intro i; fin_cases i <;> simp) ![0, 0] squareNodes ![1, 1] (fun _ _ => ⟨0⟩) _ _ _ _
    (by simp) (by simp) (by simp) (by simp) (by norm_num) (by norm_num)

end Sg.Props
