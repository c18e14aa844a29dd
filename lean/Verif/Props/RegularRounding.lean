import Verif.Proof.RegularRounded
import Verif.Proof.RoundedSolver
import Verif.Props.CollectRounding
import Verif.Props.NodeAccuracyRounding
/-
Property C157: searches and nodal weights on grids with straight equidistant lines, in rounded arithmetic.
-/
namespace Sg.Props
open Sg Sg.LinearSolve Sg.FindPoint Sg.Spec Sg.NodeInterp Sg.Regular

variable {rnd : ℝ → ℝ} {g : Gels (Fl rnd)} {N : Nat} {u β Δ κ ρ L M Y : ℝ} {A : Fin 2 → Fin 2 → ℝ} {c : Fin 2 → ℝ}
  {dims : Fin 2 → Nat} {coords : Fin 2 → Nat → Fl rnd}

/-- The target `t` is a number of the arithmetic, lies between the smallest and the largest coordinates of the grid along each axis, and within `ρ` of the place of the
index position `x` in the grid. -/
structure InRegular (dims : Fin 2 → Nat) (coords : Fin 2 → Nat → Fl rnd) (c : Fin 2 → ℝ) (A : Fin 2 → Fin 2 → ℝ) (ρ : ℝ) (t : Fin 2 → Fl rnd) (x : Fin 2 → ℝ) :
    Prop where
  number : ∀ i, rnd (t i).val = (t i).val
  box : ∀ i, ∃ m < dims 0 * dims 1, ∃ m' < dims 0 * dims 1, (coords i m).val ≤ (t i).val ∧ (t i).val ≤ (coords i m').val
  grid : ∀ i, 0 ≤ x i ∧ x i ≤ (dims i : ℝ) - 1
  near : ∀ i, |(t i).val - image c A x i| ≤ ρ

theorem box_prod {t : Fin 2 → Fl rnd} {x : Fin 2 → ℝ} (h : InRegular dims coords c A ρ t x) :
    ∀ i, ∃ m < ∏ k, dims k, ∃ m' < ∏ k, dims k, (coords i m).val ≤ (t i).val ∧ (t i).val ≤ (coords i m').val := by
  rw [Fin.prod_univ_two]; exact h.box

/-- **C157** In rounded arithmetic, on a grid with any numbers of nodes whose lines are straight and equidistant (up to rounding), after any earlier searches: a search
for a point of the grid, from any start in the grid, ends with code 1 after one call of `next` or after two, if at least three are allowed and the tolerance is
larger than the rounding errors of the second step; the indices are then those of the point, up to rounding. -/
theorem C157_search (H : FineEnough rnd g N u β Δ κ L M Y A) (hd : GoodDims dims) (hfit : ∀ i, dims i ≤ N) (hY : ∀ i, (dims i : ℝ) ≤ Y)
    (hgr : RegularGrid dims coords c A κ M) (nitermax : Int) (hnit : 3 ≤ nitermax) (tolpos : Fl rnd)
    (htol : (1 + u) ^ 6 * (Real.sqrt 2 * missError u β Δ κ ρ L M Y (firstError u β Δ κ ρ L M Y)) < tolpos.val) (f : Finder (Fl rnd) 2)
    (hf : FlSearched N g nitermax tolpos dims (fun _ => 0) coords f) (d t : Fin 2 → Fl rnd) (hin : InGrid dims (vals d)) (x : Fin 2 → ℝ)
    (hx : InRegular dims coords c A ρ t x) :
    ∃ c1 s1, (f.reset d t).next g = .ok (c1, s1) ∧ (∀ k, |(s1.dIndices k).val - x k| ≤ firstError u β Δ κ ρ L M Y) ∧
      (c1 = 1 ∨ c1 = 0 ∧ ∃ s2, s1.next g = .ok (1, s2) ∧ ∀ k, |(s2.dIndices k).val - x k| ≤ secondError u β Δ κ ρ L M Y) := by
  obtain ⟨h1, h2, -⟩ := flSearched_inv H.ints g H.stable.sizes (by norm_num) nitermax tolpos dims hd hfit (fun _ => 0) coords f hf
  obtain ⟨c1, s1, e1, -, n1, hc⟩ := search_fl H hd hfit hY hgr nitermax hnit tolpos htol f h1.ready h2 d t hin hx.number (box_prod hx) x hx.grid hx.near
  refine ⟨c1, s1, e1, n1, ?_⟩
  rcases hc with hc | ⟨hc, s2, e2, -, n2⟩
  · exact .inl hc
  · exact .inr ⟨hc, s2, e2, n2⟩

/-- An entry made is kept by the nodes after. -/
theorem kept_entry (h31 : 2 ^ 31 ≤ N) (hN : KeepsInts rnd N) (hg : FindPoint.KeepsSizes g) (o : NodeInterp (Fl rnd)) (ho : SetFl N o dims) (k : Nat)
    (iw : List (Int × Fl rnd)) : ∀ m, k + 1 ≤ m → m ≤ o.dstNumPoints → (∀ s, o.before g (k + 1) = .ok s → (k, iw) ∈ s.weights) →
    ∀ s, o.before g m = .ok s → (k, iw) ∈ s.weights := by
  intro m
  induction m with
  | zero => intro h; omega
  | succ m ih =>
    intro hkm hmN h0 sm hsm
    by_cases hkm' : k = m
    · subst hkm'; exact h0 sm hsm
    · obtain ⟨sp, hsp, hlp⟩ := before_fl hN h31 g hg o dims ho m (by omega)
      have hmem := ih (by omega) (by omega) h0 sp hsp
      rw [before_succ g o m sp hsp] at hsm
      unfold NodeInterp.node at hsm
      obtain ⟨_, _, hsm⟩ := bind_ok_inv hsm
      obtain ⟨⟨c1, f1⟩, _, hsm⟩ := bind_ok_inv hsm
      dsimp only at hsm
      split_ifs at hsm
      · obtain ⟨iw1, _, hsm⟩ := bind_ok_inv hsm
        simp only [pure, Except.pure, Except.ok.injEq] at hsm
        subst hsm
        dsimp only
        rw [insert_last _ _ _ hlp.keys, List.mem_append]
        exact .inl hmem
      · simp only [pure, Except.pure, Except.ok.injEq] at hsm
        subst hsm; exact hmem
      · obtain ⟨_, _, hsm⟩ := bind_ok_inv hsm
        obtain ⟨⟨_, _, _⟩, _, hsm⟩ := bind_ok_inv hsm
        dsimp only at hsm
        split_ifs at hsm
        · obtain ⟨_, _, hsm⟩ := bind_ok_inv hsm
          obtain ⟨_, _, hsm⟩ := bind_ok_inv hsm
          simp only [pure, Except.pure, Except.ok.injEq] at hsm
          subst hsm; exact hmem
        · simp only [pure, Except.pure, Except.ok.injEq] at hsm
          subst hsm; exact hmem

/-- The search of the interpolator. -/
theorem findTarget_regular (H : FineEnough rnd g N u β Δ κ L M Y A) (hd : GoodDims dims) (hfit : ∀ i, dims i ≤ N) (hY : ∀ i, (dims i : ℝ) ≤ Y)
    (hgr : RegularGrid dims coords c A κ M) (nitermax : Int) (hnit : 3 ≤ nitermax) (tolpos : Fl rnd)
    (htol : (1 + u) ^ 6 * (Real.sqrt 2 * missError u β Δ κ ρ L M Y (firstError u β Δ κ ρ L M Y)) < tolpos.val) (f : Finder (Fl rnd) 2)
    (hf : Ready f) (hsame : SameGrid ((Finder.new nitermax tolpos).setGrid dims (fun _ => 0) coords) f) (d t : Fin 2 → Fl rnd) (hin : InGrid dims (vals d))
    (x : Fin 2 → ℝ) (hx : InRegular dims coords c A ρ t x) :
    ∃ f', findTarget g f t d = .ok (0, f') ∧ InGrid dims (vals f'.dIndices) ∧
      ((∀ k, |(f'.dIndices k).val - x k| ≤ firstError u β Δ κ ρ L M Y) ∨ ∀ k, |(f'.dIndices k).val - x k| ≤ secondError u β Δ κ ρ L M Y) := by
  obtain ⟨c1, s1, e1, i1, n1, hc⟩ := search_fl H hd hfit hY hgr nitermax hnit tolpos htol f hf hsame d t hin hx.number (box_prod hx) x hx.grid hx.near
  obtain ⟨m, hm⟩ : ∃ m, f.fuelOf = m + 2 := by
    refine ⟨f.fuelOf - 2, ?_⟩
    have : f.nitermax = nitermax := hsame.nitermax
    unfold Finder.fuelOf
    rw [this]
    omega
  unfold findTarget
  rw [hm]
  unfold searchLoop
  rw [e1]
  simp only [bind, Except.bind]
  rcases hc with hc | ⟨hc, s2, e2, i2, n2⟩
  · rw [hc, if_neg (by norm_num)]
    exact ⟨s1, rfl, i1, .inl n1⟩
  · rw [hc, if_pos rfl]
    unfold searchLoop
    rw [e2]
    exact ⟨s2, rfl, i2, .inr n2⟩

/-- **C157** Nodal interpolation from such a grid in rounded arithmetic: whatever the destination grid, every destination node that lies in the source grid gets
weights.  They are those of an index position that is the one of the node, up to rounding. -/
theorem C157_weights (H : FineEnough rnd g N u β Δ κ L M Y A) (h31 : 2 ^ 31 ≤ N) (hd : ∀ i, 2 ≤ dims i ∧ dims i ≤ 2 ^ 30) (hY : ∀ i, (dims i : ℝ) ≤ Y)
    (hgr : RegularGrid dims coords c A κ M) (nitermax : Int) (hnit : 3 ≤ nitermax) (tolpos : Fl rnd)
    (htol : (1 + u) ^ 6 * (Real.sqrt 2 * missError u β Δ κ ρ L M Y (firstError u β Δ κ ρ L M Y)) < tolpos.val)
    (dd : Fin 2 → Nat) (dc : Fin 2 → Nat → Fl rnd) :
    ∃ o, (((new nitermax tolpos).setSrcGrid dims (fun _ => 0) coords).setDstGrid dd dc).computeWeights g = .ok o ∧
      ∀ k < dd 0 * dd 1, ∀ x, InRegular dims coords c A ρ (fun i => dc i k) x →
        ∃ iw d, (k, iw) ∈ o.weights ∧ getSrcIndicesAndWeights dims d = .ok iw ∧
          ((∀ k, |(d k).val - x k| ≤ firstError u β Δ κ ρ L M Y) ∨ ∀ k, |(d k).val - x k| ≤ secondError u β Δ κ ρ L M Y) := by
  have hN := H.ints
  have hg : FindPoint.KeepsSizes g := H.stable.sizes
  have hset := setFl_of h31 nitermax tolpos dims hd (fun _ => 0) coords dd dc
  set o0 := (((new nitermax tolpos).setSrcGrid dims (fun _ => 0) coords).setDstGrid dd dc) with ho0
  have hgd : GoodDims dims := fun i => ⟨(hd i).1, (hd i).2.trans (by norm_num)⟩
  have hfit : ∀ i, dims i ≤ N := fun i => (hd i).2.trans (by omega)
  obtain ⟨sN, hsN, hlN⟩ := before_fl hN h31 g hg o0 dims hset o0.dstNumPoints (le_refl _)
  refine ⟨{ o0 with finder := sN.finder, weights := sN.weights }, ?_, ?_⟩
  · show (if o0.srcSet && o0.dstSet then _ else _) = _
    have : (o0.srcSet && o0.dstSet) = true := rfl
    rw [if_pos this, hsN]
    rfl
  intro k hk x hx
  obtain ⟨s, hs, hl⟩ := before_fl hN h31 g hg o0 dims hset k (le_of_lt hk)
  have htgt := target_eq ((new nitermax tolpos).setSrcGrid dims (fun _ => 0) coords) dd dc k hk
  rw [← ho0] at htgt
  obtain ⟨f, hf, hfi, hfn⟩ := findTarget_regular H hgd hfit hY hgr nitermax hnit tolpos htol s.finder hl.ready hl.same s.dIndices (fun i => dc i k) hl.pos x hx
  have hfd : f.dims = dims := (findTarget_frame g hg _ _ _ _ _ hl.ready hf).2.1.dims.trans hl.same.dims
  have hiw := getSrc_fl dims hgd f.dIndices hfi
  refine ⟨_, f.dIndices, ?_, hiw, hfn⟩
  refine kept_entry h31 hN hg o0 hset k _ o0.dstNumPoints hk (le_refl _) ?_ sN hsN
  intro sk hsk
  rw [before_succ g o0 k s hs] at hsk
  unfold NodeInterp.node at hsk
  rw [htgt] at hsk
  simp only [bind, Except.bind] at hsk
  rw [hf] at hsk
  dsimp only at hsk
  rw [if_pos rfl, hfd, hiw] at hsk
  simp only [pure, Except.pure, Except.ok.injEq] at hsk
  subst hsk
  dsimp only
  rw [insert_last _ _ _ hl.keys, List.mem_append, List.mem_singleton]
  exact .inr rfl

/-! ### Double precision -/

/-- Double precision, for lines of up to 1000 nodes and coordinates up to 1000 times the distance of nodes. -/
theorem fine_double (g : Gels (Fl (nearest 53))) (hg : GelsStable g (2 ^ (-(52 : ℤ)))) (hL : 0 < L) (hA : ∀ i j, |A i j| ≤ L)
    (hdet : 1 / 2 * L ^ 2 ≤ |A 0 0 * A 1 1 - A 0 1 * A 1 0|) :
    FineEnough (nearest 53) g (2 ^ 53 - 1) (2 ^ (-((53 : Nat) : ℤ))) (2 ^ (-(52 : ℤ))) (1 / 2) (2 / 10 ^ 13 * L) L (1000 * L) 1000 A ∧
      (1 + 2 ^ (-((53 : Nat) : ℤ)) : ℝ) ^ 6 * (Real.sqrt 2 * missError (2 ^ (-((53 : Nat) : ℤ))) (2 ^ (-(52 : ℤ))) (1 / 2) (2 / 10 ^ 13 * L) (2 / 10 ^ 13 * L) L
        (1000 * L) 1000 (firstError (2 ^ (-((53 : Nat) : ℤ))) (2 ^ (-(52 : ℤ))) (1 / 2) (2 / 10 ^ 13 * L) (2 / 10 ^ 13 * L) L (1000 * L) 1000)) < 1 / 10 ^ 10 * L := by
  have hu : (2 : ℝ) ^ (-((53 : Nat) : ℤ)) = 1 / 2 ^ 53 := by norm_num
  have hb : (2 : ℝ) ^ (-(52 : ℤ)) = 1 / 2 ^ 52 := by norm_num
  have hr := nearest_rounds 53
  rw [hu] at hr
  rw [hb] at hg
  rw [hu, hb]
  have hspot : spotError (1 / 2 ^ 53) (2 / 10 ^ 13 * L) (1000 * L) =
      (2 / 10 ^ 13 + (((1 : ℝ) + 1 / 2 ^ 53) ^ 11 - 1) * 1000) * L := by unfold spotError; ring
  have hslant : slantError (1 / 2 ^ 53) (2 / 10 ^ 13 * L) L (1000 * L) =
      (5 * (1 / 2 ^ 53) + 11 * (2 / 10 ^ 13 + (((1 : ℝ) + 1 / 2 ^ 53) ^ 11 - 1) * 1000)) * L := by unfold slantError; rw [hspot]; ring
  set a : ℝ := 2 / 10 ^ 13 + (((1 : ℝ) + 1 / 2 ^ 53) ^ 11 - 1) * 1000 with ha
  have ha0 : 0 ≤ a := by rw [ha]; norm_num
  have ha1 : a ≤ 15 / 10 ^ 13 := by rw [ha]; norm_num
  set b : ℝ := 5 * (1 / 2 ^ 53) + 11 * a with hb'
  have hb0 : 0 ≤ b := by rw [hb']; positivity
  have hb1 : b ≤ 17 / 10 ^ 12 := by rw [hb']; linarith
  have hsys : systemError (1 / 2 ^ 53) (1 / 2 ^ 52) (2 / 10 ^ 13 * L) L (1000 * L) = (b + 1 / 2 ^ 52 * (1 + b)) * L := by
    unfold systemError; rw [hslant]; ring
  set s : ℝ := b + 1 / 2 ^ 52 * (1 + b) with hs
  have hs0 : 0 ≤ s := by rw [hs]; positivity
  have hs1 : s ≤ 18 / 10 ^ 12 := by rw [hs]; linarith
  refine ⟨⟨hr, nearest_ints 53 (by norm_num), ?_, by norm_num, hg, by norm_num, by norm_num, hL, hA, hdet, by norm_num, ?_⟩, ?_⟩
  · have := nearest_exact (p := 53) (m := 1) (k := -1) (by norm_num)
    norm_num at this ⊢
    exact this
  · rw [hsys]
    nlinarith
  · have hstep : ∀ δ, stepError (1 / 2 ^ 53) (1 / 2 ^ 52) (1 / 2) (2 / 10 ^ 13 * L) (2 / 10 ^ 13 * L) L (1000 * L) δ =
        8 * (2 / 10 ^ 13 + a + 1 / 2 ^ 53 * (2 * δ + 2 / 10 ^ 13 + a) + 2 * δ * s) := by
      intro δ
      unfold stepError shiftError
      rw [hspot, hsys]
      field_simp
      ring
    have hland : ∀ δ, landError (1 / 2 ^ 53) (1 / 2 ^ 52) (1 / 2) (2 / 10 ^ 13 * L) (2 / 10 ^ 13 * L) L (1000 * L) 1000 δ =
        8 * (2 / 10 ^ 13 + a + 1 / 2 ^ 53 * (2 * δ + 2 / 10 ^ 13 + a) + 2 * δ * s) + 1 / 2 ^ 53 * (1000 +
          8 * (2 / 10 ^ 13 + a + 1 / 2 ^ 53 * (2 * δ + 2 / 10 ^ 13 + a) + 2 * δ * s)) := by
      intro δ
      unfold landError
      rw [hstep]
    unfold missError firstError
    rw [hspot]
    set δ := landError (1 / 2 ^ 53) (1 / 2 ^ 52) (1 / 2) (2 / 10 ^ 13 * L) (2 / 10 ^ 13 * L) L (1000 * L) 1000 1000 with hδ
    have hδ1 : 0 ≤ δ ∧ δ ≤ 1 / 10 ^ 6 := by
      rw [hδ, hland]
      constructor
      · positivity
      · norm_num
    have hδs : 0 ≤ δ * s ∧ δ * s ≤ 1 / 10 ^ 6 * (18 / 10 ^ 12) := ⟨mul_nonneg hδ1.1 hs0, mul_le_mul hδ1.2 hs1 hs0 (by norm_num)⟩
    set δ2 := landError (1 / 2 ^ 53) (1 / 2 ^ 52) (1 / 2) (2 / 10 ^ 13 * L) (2 / 10 ^ 13 * L) L (1000 * L) 1000 δ with hδ2
    have hδ21 : 0 ≤ δ2 ∧ δ2 ≤ 15 / 10 ^ 12 := by
      rw [hδ2, hland]
      obtain ⟨p1, p2⟩ := hδ1
      obtain ⟨q1, q2⟩ := hδs
      constructor
      · positivity
      · have e : 2 * δ * s = 2 * (δ * s) := by ring
        rw [e]
        norm_num at q2 p2 ha1 ⊢
        linarith
    have hsq : Real.sqrt 2 ≤ 3 / 2 := by
      rw [Real.sqrt_le_iff]; norm_num
    have hm : a * L + 2 * L * δ2 + 2 / 10 ^ 13 * L = (a + 2 * δ2 + 2 / 10 ^ 13) * L := by ring
    rw [hm]
    have hmb : a + 2 * δ2 + 2 / 10 ^ 13 ≤ 4 / 10 ^ 11 := by
      norm_num at hδ21 ha1 ⊢
      linarith [hδ21.2]
    have hm0 : 0 ≤ a + 2 * δ2 + 2 / 10 ^ 13 := by
      have := hδ21.1
      positivity
    have h6 : ((1 : ℝ) + 1 / 2 ^ 53) ^ 6 ≤ 101 / 100 := by norm_num
    have t1 : Real.sqrt 2 * ((a + 2 * δ2 + 2 / 10 ^ 13) * L) ≤ 3 / 2 * (4 / 10 ^ 11 * L) :=
      mul_le_mul hsq (mul_le_mul_of_nonneg_right hmb hL.le) (mul_nonneg hm0 hL.le) (by norm_num)
    have t2 : ((1 : ℝ) + 1 / 2 ^ 53) ^ 6 * (Real.sqrt 2 * ((a + 2 * δ2 + 2 / 10 ^ 13) * L)) ≤ 101 / 100 * (3 / 2 * (4 / 10 ^ 11 * L)) :=
      mul_le_mul h6 t1 (mul_nonneg (Real.sqrt_nonneg _) (mul_nonneg hm0 hL.le)) (by norm_num)
    refine t2.trans_lt ?_
    nlinarith

/-- **C157** In double precision: on source grids of up to 1000 by 1000 nodes with straight equidistant lines, not too slanted and not too far from the origin, with
the tolerance `10^-10` times the distance of nodes and three steps allowed, every destination node that lies in the source grid gets weights. -/
theorem C157_double (g : Gels (Fl (nearest 53))) (hg : GelsStable g (2 ^ (-(52 : ℤ)))) (hL : 0 < L) (hA : ∀ i j, |A i j| ≤ L)
    (hdet : 1 / 2 * L ^ 2 ≤ |A 0 0 * A 1 1 - A 0 1 * A 1 0|) {coords : Fin 2 → Nat → Fl (nearest 53)} (hd : ∀ i, 2 ≤ dims i ∧ dims i ≤ 1000)
    (hgr : RegularGrid dims coords c A (2 / 10 ^ 13 * L) (1000 * L)) (nitermax : Int) (hnit : 3 ≤ nitermax) (tolpos : Fl (nearest 53))
    (htol : 1 / 10 ^ 10 * L ≤ tolpos.val) (dd : Fin 2 → Nat) (dc : Fin 2 → Nat → Fl (nearest 53)) :
    ∃ o, (((new nitermax tolpos).setSrcGrid dims (fun _ => 0) coords).setDstGrid dd dc).computeWeights g = .ok o ∧
      ∀ k < dd 0 * dd 1, ∀ x, InRegular dims coords c A (2 / 10 ^ 13 * L) (fun i => dc i k) x → ∃ iw, (k, iw) ∈ o.weights := by
  obtain ⟨H, ht⟩ := fine_double g hg hL hA hdet
  obtain ⟨o, ho, h⟩ := C157_weights (ρ := 2 / 10 ^ 13 * L) H (by norm_num) (fun i => ⟨(hd i).1, (hd i).2.trans (by norm_num)⟩) (fun i => by exact_mod_cast (hd i).2) hgr nitermax hnit
    tolpos (ht.trans_le htol) dd dc
  refine ⟨o, ho, fun k hk x hx => ?_⟩
  obtain ⟨iw, -, hm, -⟩ := h k hk x hx
  exact ⟨iw, hm⟩

/-- **C157** Values on such grids in double precision: if the source values are those of a linear field, up to `δ`, `apply` writes at every destination node that lies in
the source grid the value of the field there, up to the tolerance and rounding. -/
theorem C157_values (g : Gels (Fl (nearest 53))) (hg : GelsStable g (2 ^ (-(52 : ℤ)))) (hL : 0 < L) (hA : ∀ i j, |A i j| ≤ L)
    (hdet : 1 / 2 * L ^ 2 ≤ |A 0 0 * A 1 1 - A 0 1 * A 1 0|) {coords : Fin 2 → Nat → Fl (nearest 53)} (hd : ∀ i, 2 ≤ dims i ∧ dims i ≤ 1000)
    (hgr : RegularGrid dims coords c A (2 / 10 ^ 13 * L) (1000 * L)) (nitermax : Int) (hnit : 3 ≤ nitermax) (tolpos : Fl (nearest 53))
    (htol : 1 / 10 ^ 10 * L ≤ tolpos.val) (dd : Fin 2 → Nat) (dc : Fin 2 → Nat → Fl (nearest 53)) (b0 : ℝ) (b : Fin 2 → ℝ) (δ : ℝ)
    (src dst : List (Fl (nearest 53))) (hsrc : src.length = dims 0 * dims 1)
    (hfield : ∀ m < dims 0 * dims 1, ∃ v, src[m]? = some v ∧ |v.val - (b0 + ∑ i, b i * (coords i m).val)| ≤ δ)
    (hdst : dst.length = dd 0 * dd 1) (Φ : ℝ) (hΦ0 : 0 ≤ Φ) (hΦ : ∀ v ∈ src, |v.val| ≤ Φ) :
    ∃ o d, (((new nitermax tolpos).setSrcGrid dims (fun _ => 0) coords).setDstGrid dd dc).computeWeights g = .ok o ∧ o.apply src dst = .ok d ∧
      ∀ k < dd 0 * dd 1, ∀ x, InRegular dims coords c A (2 / 10 ^ 13 * L) (fun i => dc i k) x → ∃ v, d[k]? = some v ∧
        |v.val - (b0 + ∑ i, b i * (dc i k).val)| ≤
          Real.sqrt (∑ i, b i ^ 2) * (tolpos.val + 2 / 10 ^ 15 * (tolpos.val + 1000 * L)) + δ + 2 / 10 ^ 15 * Φ := by
  obtain ⟨o, ho, h⟩ := C157_double g hg hL hA hdet hd hgr nitermax hnit tolpos htol dd dc
  obtain ⟨o', d, ho', ha, hv⟩ := C155_double g hg.sizes nitermax tolpos (le_trans (by positivity) htol) dims (fun i => ⟨(hd i).1, (hd i).2.trans (by norm_num)⟩)
    (fun _ => 0) coords (1000 * L) (by positivity) hgr.size dd dc b0 b δ src dst hsrc hfield hdst Φ hΦ0 hΦ
  rw [ho, Except.ok.injEq] at ho'
  subst ho'
  refine ⟨o, d, ho, ha, fun k hk x hx => ?_⟩
  obtain ⟨iw, hm⟩ := h k hk x hx
  exact hv k iw hm

/-- The lattice of 1000 by 800 points with whole coordinates. -/
noncomputable def lattice : Fin 2 → Nat → Fl (nearest 53) := fun i m => ⟨![((m / 800 : Nat) : ℝ), ((m % 800 : Nat) : ℝ)] i⟩

/-- The lattice meets the hypotheses. -/
theorem lattice_regular : RegularGrid ![1000, 800] lattice (fun _ => 0) !![1, (0 : ℝ); 0, 1] (2 / 10 ^ 13 * 1) (1000 * 1) := by
  constructor
  · intro p q _ hq i
    have hq' : q < 800 := hq
    have e1 : (p * 800 + q) / 800 = p := by omega
    have e2 : (p * 800 + q) % 800 = q := by omega
    show |![(((p * 800 + q) / 800 : Nat) : ℝ), (((p * 800 + q) % 800 : Nat) : ℝ)] i - _| ≤ _
    rw [e1, e2]
    fin_cases i <;> simp [image] <;> norm_num
  · intro i m hm
    have hm' : m < 1000 * 800 := hm
    have h1 : ((m / 800 : Nat) : ℝ) ≤ 1000 := by exact_mod_cast (show m / 800 ≤ 1000 by omega)
    have h2 : ((m % 800 : Nat) : ℝ) ≤ 1000 := by exact_mod_cast (show m % 800 ≤ 1000 by omega)
    have h3 : (0 : ℝ) ≤ ((m / 800 : Nat) : ℝ) := Nat.cast_nonneg _
    have h4 : (0 : ℝ) ≤ ((m % 800 : Nat) : ℝ) := Nat.cast_nonneg _
    fin_cases i
    · show |((m / 800 : Nat) : ℝ)| ≤ _
      rw [abs_of_nonneg h3]; linarith
    · show |((m % 800 : Nat) : ℝ)| ≤ _
      rw [abs_of_nonneg h4]; linarith

theorem lattice_point (x : Fin 2 → ℝ) (hx : ∀ i, nearest 53 (x i) = x i) (h : ∀ i, 0 ≤ x i ∧ x i ≤ 799) :
    InRegular ![1000, 800] lattice (fun _ => 0) !![1, (0 : ℝ); 0, 1] (2 / 10 ^ 13 * 1) (fun i => ⟨x i⟩) x where
  number := hx
  box i := by
    refine ⟨0, by simp, 799 * 800 + 799, by simp, ?_, ?_⟩
    · have : (lattice i 0).val = 0 := by unfold lattice; fin_cases i <;> simp
      rw [this]; exact (h i).1
    · have : (lattice i (799 * 800 + 799)).val = 799 := by unfold lattice; fin_cases i <;> norm_num
      rw [this]; exact (h i).2
  grid i := by
    obtain ⟨h0, h1⟩ := h i
    refine ⟨h0, ?_⟩
    fin_cases i
    · show x 0 ≤ ((1000 : Nat) : ℝ) - 1
      have : x 0 ≤ 799 := h1
      push_cast; linarith
    · show x 1 ≤ ((800 : Nat) : ℝ) - 1
      have : x 1 ≤ 799 := h1
      push_cast; linarith
  near i := by
    fin_cases i <;> simp [image] <;> norm_num

/-- The hypotheses of C157 are met: source grid the lattice, tolerance `2^-32`, one destination node, at (5/2, 29/4). -/
example : ∃ o, (((new 10 (⟨2 ^ (-32 : ℤ)⟩ : Fl (nearest 53))).setSrcGrid ![1000, 800] (fun _ => 0) lattice).setDstGrid ![1, 1]
      fun i _ => ⟨(![5 / 2, 29 / 4] : Fin 2 → ℝ) i⟩).computeWeights (nearGels (nearest 53)) = .ok o ∧ ∃ iw, (0, iw) ∈ o.weights := by
  obtain ⟨o, ho, h⟩ := C157_double (L := 1) (A := !![1, (0 : ℝ); 0, 1]) (c := fun _ => 0) (dims := ![1000, 800]) (nearGels (nearest 53)) nearGels_double one_pos
    (by intro i j; fin_cases i <;> fin_cases j <;> simp) (by simp; norm_num) (by intro i; fin_cases i <;> norm_num) lattice_regular 10 (by norm_num)
    ⟨2 ^ (-32 : ℤ)⟩ (by norm_num) ![1, 1] (fun i _ => ⟨(![5 / 2, 29 / 4] : Fin 2 → ℝ) i⟩)
  refine ⟨o, ho, h 0 (by simp) ![5 / 2, 29 / 4] (lattice_point _ ?_ ?_)⟩
  · intro i
    fin_cases i
    · have := nearest_exact (p := 53) (m := 5) (k := -1) (by norm_num)
      norm_num at this ⊢
      exact this
    · have := nearest_exact (p := 53) (m := 29) (k := -2) (by norm_num)
      norm_num at this ⊢
      exact this
  · intro i
    fin_cases i <;> norm_num

theorem reset_reset (f : Finder (Fl rnd) 2) (a b d t : Fin 2 → Fl rnd) : (f.reset a b).reset d t = f.reset d t := rfl

/-- A search on the lattice: from the corner, for the point (5/2, 29/4). -/
example : ∃ c1 s1, (((Finder.new 10 (⟨2 ^ (-32 : ℤ)⟩ : Fl (nearest 53))).setGrid ![1000, 800] (fun _ => 0) lattice).reset (fun _ => 0)
      fun i => ⟨(![5 / 2, 29 / 4] : Fin 2 → ℝ) i⟩).next (nearGels (nearest 53)) = .ok (c1, s1) ∧
      (c1 = 1 ∨ c1 = 0 ∧ ∃ s2, s1.next (nearGels (nearest 53)) = .ok (1, s2)) := by
  obtain ⟨H, ht⟩ := fine_double (L := 1) (A := !![1, (0 : ℝ); 0, 1]) (nearGels (nearest 53)) nearGels_double one_pos
    (by intro i j; fin_cases i <;> fin_cases j <;> simp) (by simp; norm_num)
  have hin : InGrid ![1000, 800] (vals fun _ : Fin 2 => (0 : Fl (nearest 53))) := by
    intro i
    refine ⟨le_rfl, ?_⟩
    show (0 : ℝ) ≤ _
    fin_cases i <;> norm_num
  obtain ⟨c1, s1, e, -, h⟩ := C157_search H (dims := ![1000, 800]) (by intro i; fin_cases i <;> norm_num) (by intro i; fin_cases i <;> norm_num)
    (by intro i; fin_cases i <;> norm_num) lattice_regular 10 (by norm_num) ⟨2 ^ (-32 : ℤ)⟩ (ht.trans_le (by norm_num)) _
    ⟨fun _ => 0, fun _ => 0, [], hin, (by intro c hc; cases hc), rfl⟩ (fun _ => 0) (fun i => ⟨(![5 / 2, 29 / 4] : Fin 2 → ℝ) i⟩) hin ![5 / 2, 29 / 4] (lattice_point _ (by
      intro i
      fin_cases i
      · have := nearest_exact (p := 53) (m := 5) (k := -1) (by norm_num)
        norm_num at this ⊢
        exact this
      · have := nearest_exact (p := 53) (m := 29) (k := -2) (by norm_num)
        norm_num at this ⊢
        exact this) (by intro i; fin_cases i <;> norm_num))
  rw [reset_reset] at e
  refine ⟨c1, s1, e, ?_⟩
  rcases h with h | ⟨h, s2, e2, -⟩
  · exact .inl h
  · exact .inr ⟨h, s2, e2⟩

end Sg.Props
