import Verif.Props.NodeInterp
/-
Property C146: nodal interpolation in two steps over a finer grid.  `K` is an ordered field with a floor.  `g` stands for the linear algebra library.
-/
namespace Sg.Props
open Sg Sg.FindPoint Sg.LinearSolve Sg.Spec Sg.NodeInterp

set_option linter.unusedSectionVars false
variable {K : Type} [Field K] [LinearOrder K] [IsStrictOrderedRing K] [FloorRing K] [FOps K] [FOpsLaws K]

/-- The value at a point of the cell `(i, j)`, at the fractions `u`, `v` of its sides, of the field that is bilinear in the cell and has the values of the array at the
corners. -/
def cellValue (dims : Fin 2 → Nat) (src : List K) (i j : Nat) (u v : K) : K :=
  (1 - u) * (1 - v) * nodeValue dims src i j + (1 - u) * v * nodeValue dims src i (j + 1)
    + u * (1 - v) * nodeValue dims src (i + 1) j + u * v * nodeValue dims src (i + 1) (j + 1)

/-- The cell of a position along an axis with `n + 1` nodes. -/
theorem cell_of (n : Nat) (hn : 1 ≤ n) (t : K) (h0 : 0 ≤ t) (h1 : t ≤ n) : ∃ i u, i < n ∧ (0 ≤ u ∧ u ≤ 1) ∧ t = (i : K) + u := by
  induction n with
  | zero => omega
  | succ n ih =>
    rcases le_total t n with h | h
    · rcases Nat.eq_zero_or_pos n with h2 | h2
      · subst h2
        exact ⟨0, t, by omega, ⟨h0, by simpa using h1⟩, by simp⟩
      · obtain ⟨i, u, a, b, e⟩ := ih h2 h
        exact ⟨i, u, by omega, b, e⟩
    · exact ⟨n, t - n, by omega, ⟨by linarith, by push_cast at h1; linarith⟩, by ring⟩

/-- The part of a cell cut into `p` parts along an axis. -/
theorem part_of {p n I : Nat} (hp : 1 ≤ p) (hI : I < p * n) : ∃ i r, i < n ∧ r + 1 ≤ p ∧ I = p * i + r :=
  ⟨I / p, I % p, Nat.div_lt_of_lt_mul hI, Nat.mod_lt _ (by omega), (Nat.div_add_mod _ _).symm⟩

/-- Interpolation of an interpolated field: the field that is bilinear between values of a bilinear field is this field. -/
theorem bilinear_part (a b c d : K) (U0 U1 V0 V1 u v : K) :
    let f := fun x y : K => (1 - x) * (1 - y) * a + (1 - x) * y * b + x * (1 - y) * c + x * y * d
    (1 - u) * (1 - v) * f U0 V0 + (1 - u) * v * f U0 V1 + u * (1 - v) * f U1 V0 + u * v * f U1 V1 =
      f ((1 - u) * U0 + u * U1) ((1 - v) * V0 + v * V1) := by
  intro f
  simp only [f]
  ring

/-- What nodal interpolation to the nodes of a grid with cells cut into `p 0` times `p 1` equal parts gives at the corners of a part. -/
theorem fine_value (dims fd p : Fin 2 → Nat) (hp : ∀ a, 1 ≤ p a) (hfd : ∀ a, fd a = p a * (dims a - 1) + 1) (c : Fin 2 → K) (A : Matrix (Fin 2) (Fin 2) K)
    (fc : Fin 2 → Nat → K) (hfine : AffineGrid fd c (fun a b => A a b / p b) fc) (src d : List K)
    (h : ∀ k < fd 0 * fd 1, ∀ (i j : Nat) (u v : K), i + 1 < dims 0 → j + 1 < dims 1 → 0 ≤ u ∧ u ≤ 1 → 0 ≤ v ∧ v ≤ 1 →
        (∀ a, fc a k = c a + (A a 0 * (i + u) + A a 1 * (j + v))) → d[k]? = some (cellValue dims src i j u v))
    {i j r s : Nat} (hi : i + 1 < dims 0) (hj : j + 1 < dims 1) (hr : r ≤ p 0) (hs : s ≤ p 1) :
    nodeValue fd d (p 0 * i + r) (p 1 * j + s) = cellValue dims src i j (r / p 0) (s / p 1) := by
  have hb : ∀ (a : Fin 2) (i r : Nat), i + 1 < dims a → r ≤ p a → p a * i + r < fd a := by
    intro a i r hi hr
    rw [hfd]
    have : p a * (i + 1) ≤ p a * (dims a - 1) := Nat.mul_le_mul_left _ (by omega)
    rw [Nat.mul_add] at this
    omega
  have hI := hb 0 i r hi hr
  have hJ := hb 1 j s hj hs
  have hk : (p 0 * i + r) * fd 1 + (p 1 * j + s) < fd 0 * fd 1 := by
    calc (p 0 * i + r) * fd 1 + (p 1 * j + s) < (p 0 * i + r) * fd 1 + fd 1 := by omega
      _ = (p 0 * i + r + 1) * fd 1 := by ring
      _ ≤ fd 0 * fd 1 := Nat.mul_le_mul_right _ (by omega)
  have hfrac : ∀ (a : Fin 2) (r : Nat), r ≤ p a → 0 ≤ (r / p a : K) ∧ (r / p a : K) ≤ 1 := by
    intro a r hr
    have h1 : (0 : K) < p a := by exact_mod_cast hp a
    exact ⟨by positivity, by rw [div_le_one h1]; exact_mod_cast hr⟩
  have hrm : rowMajor fd ![p 0 * i + r, p 1 * j + s] = (p 0 * i + r) * fd 1 + (p 1 * j + s) := by
    rw [rowMajor_succ, rowMajor_succ]
    simp [rowMajor]
  have e := h _ hk i j (r / p 0) (s / p 1) hi hj (hfrac 0 r hr) (hfrac 1 s hs) (by
    intro a
    have := hfine ![p 0 * i + r, p 1 * j + s] (by intro b; fin_cases b <;> assumption) a
    rw [hrm, Fin.sum_univ_two] at this
    rw [this]
    have h1 : (p 0 : K) ≠ 0 := by exact_mod_cast (by have := hp 0; omega : p 0 ≠ 0)
    have h2 : (p 1 : K) ≠ 0 := by exact_mod_cast (by have := hp 1; omega : p 1 ≠ 0)
    simp only [Matrix.cons_val_zero, Matrix.cons_val_one]
    push_cast
    field_simp)
  unfold nodeValue
  rw [List.getD_eq_getElem?_getD, e]
  rfl

/-- The table of weights of affine grids can be applied, and keeps the number of values. -/
theorem bilinear_run (g : Gels K) (hg : GelsContract g) (nitermax : Int) (hnit : 2 ≤ nitermax) (tolpos : K)
    (htol : 0 < tolpos) (dims : Fin 2 → Nat) (hd : ∀ i, 2 ≤ dims i ∧ dims i ≤ 2 ^ 30) (per : Fin 2 → Int)
    (coords : Fin 2 → Nat → K) (c : Fin 2 → K) (A : Matrix (Fin 2) (Fin 2) K) (hA : A.det ≠ 0)
    (hgrid : AffineGrid dims c A coords) (dd : Fin 2 → Nat) (dc : Fin 2 → Nat → K)
    (src dst : List K) (hsrc : src.length = dims 0 * dims 1) (hdst : dst.length = dd 0 * dd 1) :
    ∃ o d, (((new nitermax tolpos).setSrcGrid dims per coords).setDstGrid dd dc).computeWeights g = .ok o ∧
      o.apply src dst = .ok d ∧ d.length = dd 0 * dd 1 ∧
      ∀ k < dd 0 * dd 1, ∀ (i j : Nat) (u v : K), i + 1 < dims 0 → j + 1 < dims 1 → 0 ≤ u ∧ u ≤ 1 → 0 ≤ v ∧ v ≤ 1 →
        (∀ a, dc a k = c a + (A a 0 * (i + u) + A a 1 * (j + v))) → d[k]? = some (cellValue dims src i j u v) := by
  obtain ⟨o, d, ho, h1, h2⟩ := C88_bilinear g hg nitermax hnit tolpos htol dims hd per coords c A hA hgrid dd dc src dst hsrc hdst
  obtain ⟨o', ho', ht, _⟩ := C38_table g hg.sizes nitermax tolpos dims hd per coords dd dc
  rw [ho, Except.ok.injEq] at ho'
  subst ho'
  obtain ⟨d', h3, h4, _⟩ := C38_apply o src dst (by rw [hsrc, hdst]; exact ht)
  rw [h1, Except.ok.injEq] at h3
  subst h3
  exact ⟨o, d, ho, h1, by rw [h4, hdst], h2⟩

/-- **C146** Source grid that is an invertible affine image of its indices; a finer grid whose nodes cut each of its cells into `p 0` times `p 1` equal parts; any data:
interpolating to the finer grid and from there to a third grid gives every node of the third grid that is in the source grid the same value as interpolating to it
directly.  (The third grid may be of any kind, and may have nodes outside.) -/
theorem C146_two_steps (g : Gels K) (hg : GelsContract g) (nitermax : Int) (hnit : 2 ≤ nitermax) (tolpos : K)
    (htol : 0 < tolpos) (dims fd p : Fin 2 → Nat) (hd : ∀ i, 2 ≤ dims i) (hp : ∀ a, 1 ≤ p a) (hfd : ∀ a, fd a = p a * (dims a - 1) + 1)
    (hf : ∀ a, fd a ≤ 2 ^ 30) (per per' : Fin 2 → Int)
    (coords fc : Fin 2 → Nat → K) (c : Fin 2 → K) (A : Matrix (Fin 2) (Fin 2) K) (hA : A.det ≠ 0)
    (hgrid : AffineGrid dims c A coords) (hfine : AffineGrid fd c (fun a b => A a b / p b) fc)
    (dd : Fin 2 → Nat) (dc : Fin 2 → Nat → K)
    (src mid dst : List K) (hsrc : src.length = dims 0 * dims 1) (hmid : mid.length = fd 0 * fd 1) (hdst : dst.length = dd 0 * dd 1) :
    ∃ o1 o2 o3 m d d', (((new nitermax tolpos).setSrcGrid dims per coords).setDstGrid fd fc).computeWeights g = .ok o1 ∧
      (((new nitermax tolpos).setSrcGrid fd per' fc).setDstGrid dd dc).computeWeights g = .ok o2 ∧
      (((new nitermax tolpos).setSrcGrid dims per coords).setDstGrid dd dc).computeWeights g = .ok o3 ∧
      o1.apply src mid = .ok m ∧ o2.apply m dst = .ok d ∧ o3.apply src dst = .ok d' ∧
      ∀ k < dd 0 * dd 1, ∀ t : Fin 2 → K, InGrid dims t → (∀ i, dc i k = c i + ∑ j, A i j * t j) → d[k]? = d'[k]? := by
  have hp0 : (0 : K) < p 0 := by exact_mod_cast hp 0
  have hp1 : (0 : K) < p 1 := by exact_mod_cast hp 1
  have hle : ∀ a, dims a ≤ fd a := by
    intro a
    have := Nat.mul_le_mul_right (dims a - 1) (hp a)
    rw [hfd]
    have := hd a
    omega
  have hA' : (Matrix.of fun a b => A a b / (p b : K)).det ≠ 0 := by
    rw [Matrix.det_fin_two] at hA ⊢
    simp only [Matrix.of_apply]
    have : A 0 0 / p 0 * (A 1 1 / p 1) - A 0 1 / p 1 * (A 1 0 / p 0) = (A 0 0 * A 1 1 - A 0 1 * A 1 0) / (p 0 * p 1 : K) := by
      field_simp
    rw [this]
    exact div_ne_zero hA (mul_pos hp0 hp1).ne'
  obtain ⟨o1, m, e1, a1, l1, v1⟩ := bilinear_run g hg nitermax hnit tolpos htol dims (fun i => ⟨hd i, (hle i).trans (hf i)⟩) per coords c A hA hgrid fd fc src mid hsrc hmid
  obtain ⟨o2, d, e2, a2, -, v2⟩ := bilinear_run g hg nitermax hnit tolpos htol fd (fun i => ⟨(hd i).trans (hle i), hf i⟩) per' fc c _ hA' hfine dd dc m dst l1 hdst
  obtain ⟨o3, d', e3, a3, -, v3⟩ := bilinear_run g hg nitermax hnit tolpos htol dims (fun i => ⟨hd i, (hle i).trans (hf i)⟩) per coords c A hA hgrid dd dc src dst hsrc hdst
  refine ⟨o1, o2, o3, m, d, d', e1, e2, e3, a1, a2, a3, fun k hk t ht hdc => ?_⟩
  have key : ∀ a, ∃ (i r : Nat) (u : K), i + 1 < dims a ∧ r + 1 ≤ p a ∧ p a * i + r + 1 < fd a ∧ (0 ≤ u ∧ u ≤ 1) ∧ p a * t a = ((p a * i + r : Nat) : K) + u := by
    intro a
    have hpa : (0 : K) < p a := by exact_mod_cast hp a
    have hta : 0 ≤ t a ∧ t a ≤ ((dims a - 1 : Nat) : K) := by
      have := ht a
      have h2 : ((dims a - 1 : Nat) : K) = (dims a : K) - 1 := by rw [Nat.cast_sub (by have := hd a; omega)]; simp
      rw [h2]
      exact this
    have hn : 1 ≤ p a * (dims a - 1) := Nat.mul_pos (hp a) (by have := hd a; omega)
    obtain ⟨I, u, hI, hu, e⟩ := cell_of (p a * (dims a - 1)) hn (p a * t a) (mul_nonneg hpa.le hta.1)
      (by push_cast; exact mul_le_mul_of_nonneg_left hta.2 hpa.le)
    obtain ⟨i, r, hi, hr, rfl⟩ := part_of (hp a) hI
    exact ⟨i, r, u, by omega, hr, by rw [hfd]; omega, hu, e⟩
  obtain ⟨i, r, u, hi, hr, hI, hu, eu⟩ := key 0
  obtain ⟨j, s, v, hj, hs, hJ, hv, ev⟩ := key 1
  have frac : ∀ {q r : Nat} {u : K}, 0 < (q : K) → r + 1 ≤ q → 0 ≤ u ∧ u ≤ 1 → 0 ≤ (r + u) / (q : K) ∧ (r + u) / (q : K) ≤ 1 := by
    intro q r u hq hr hu
    have : ((r + 1 : Nat) : K) ≤ q := by exact_mod_cast hr
    push_cast at this
    exact ⟨div_nonneg (add_nonneg (by positivity) hu.1) hq.le, by rw [div_le_one hq]; linarith [hu.2]⟩
  have et0 : t 0 = i + (r + u) / (p 0 : K) := by
    have := eu
    push_cast at this
    field_simp
    linarith
  have et1 : t 1 = j + (s + v) / (p 1 : K) := by
    have := ev
    push_cast at this
    field_simp
    linarith
  rw [v3 k hk i j ((r + u) / p 0) ((s + v) / p 1) hi hj (frac hp0 hr hu) (frac hp1 hs hv) (fun a => by rw [hdc, Fin.sum_univ_two, et0, et1])]
  rw [v2 k hk (p 0 * i + r) (p 1 * j + s) u v hI hJ hu hv (fun a => by
    rw [hdc, Fin.sum_univ_two, ← eu, ← ev]
    simp only [Matrix.of_apply]
    field_simp)]
  congr 1
  have F := fun r s hr hs => fine_value dims fd p hp hfd c A fc hfine src m v1 hi hj (r := r) (s := s) hr hs
  have f00 := F (r) (s) (by omega) (by omega)
  have f01 := F (r) (s + 1) (by omega) hs
  have f10 := F (r + 1) (s) hr (by omega)
  have f11 := F (r + 1) (s + 1) hr hs
  rw [← Nat.add_assoc] at f01 f10 f11
  rw [← Nat.add_assoc (p 1 * j)] at f11
  conv_lhs => unfold cellValue
  rw [f00, f01, f10, f11]
  unfold cellValue
  rw [bilinear_part]
  have g0 : (1 - u) * ((r : K) / p 0) + u * (((r + 1 : Nat) : K) / p 0) = (r + u) / p 0 := by push_cast; field_simp; ring
  have g1 : (1 - v) * ((s : K) / p 1) + v * (((s + 1 : Nat) : K) / p 1) = (s + v) / p 1 := by push_cast; field_simp; ring
  rw [g0, g1]

/-- **C146** In the same setting, going to the finer grid and back gives the data that were there. -/
theorem C146_back (g : Gels K) (hg : GelsContract g) (nitermax : Int) (hnit : 2 ≤ nitermax) (tolpos : K)
    (htol : 0 < tolpos) (dims fd p : Fin 2 → Nat) (hd : ∀ i, 2 ≤ dims i) (hp : ∀ a, 1 ≤ p a) (hfd : ∀ a, fd a = p a * (dims a - 1) + 1)
    (hf : ∀ a, fd a ≤ 2 ^ 30) (per per' : Fin 2 → Int)
    (coords fc : Fin 2 → Nat → K) (c : Fin 2 → K) (A : Matrix (Fin 2) (Fin 2) K) (hA : A.det ≠ 0)
    (hgrid : AffineGrid dims c A coords) (hfine : AffineGrid fd c (fun a b => A a b / p b) fc)
    (src mid dst : List K) (hsrc : src.length = dims 0 * dims 1) (hmid : mid.length = fd 0 * fd 1) (hdst : dst.length = dims 0 * dims 1) :
    ∃ o1 o2 m, (((new nitermax tolpos).setSrcGrid dims per coords).setDstGrid fd fc).computeWeights g = .ok o1 ∧
      (((new nitermax tolpos).setSrcGrid fd per' fc).setDstGrid dims coords).computeWeights g = .ok o2 ∧
      o1.apply src mid = .ok m ∧ o2.apply m dst = .ok src := by
  have hle : ∀ a, dims a ≤ fd a := by
    intro a
    have := Nat.mul_le_mul_right (dims a - 1) (hp a)
    rw [hfd]
    have := hd a
    omega
  obtain ⟨o1, o2, o3, m, d, d', e1, e2, e3, a1, a2, a3, h⟩ := C146_two_steps g hg nitermax hnit tolpos htol dims fd p hd hp hfd hf per per' coords fc c A hA hgrid hfine
    dims coords src mid dst hsrc hmid hdst
  obtain ⟨o3', d'', e3', a3', -, hsame⟩ := C88_same_nodes g hg nitermax hnit tolpos htol dims (fun i => ⟨hd i, (hle i).trans (hf i)⟩) per coords c A hA hgrid dims coords
    src dst hsrc hdst
  rw [e3, Except.ok.injEq] at e3'
  subst e3'
  rw [a3, Except.ok.injEq] at a3'
  subst a3'
  have hd' := hsame rfl fun _ _ _ => rfl
  subst hd'
  refine ⟨o1, o2, m, e1, e2, a1, ?_⟩
  rw [a2, Except.ok.injEq]
  have hdl : d.length = dims 0 * dims 1 := by
    obtain ⟨o', ho', ht, _⟩ := C38_table g hg.sizes nitermax tolpos fd (fun i => ⟨(hd i).trans (hle i), hf i⟩) per' fc dims coords
    rw [e2, Except.ok.injEq] at ho'
    subst ho'
    obtain ⟨o4, m', e4, a4, l4, -⟩ := bilinear_run g hg nitermax hnit tolpos htol dims (fun i => ⟨hd i, (hle i).trans (hf i)⟩) per coords c A hA hgrid fd fc d' mid hsrc hmid
    rw [e1, Except.ok.injEq] at e4
    subst e4
    rw [a1, Except.ok.injEq] at a4
    subst a4
    obtain ⟨d3, h3, h4, _⟩ := C38_apply o2 m dst (by rw [l4, hdst]; exact ht)
    rw [a2, Except.ok.injEq] at h3
    subst h3
    rw [h4, hdst]
  refine List.ext_getElem? fun k => ?_
  rcases Nat.lt_or_ge k (dims 0 * dims 1) with hk | hk
  · have hd1 := hd 1
    have hi : k / dims 1 < dims 0 := Nat.div_lt_of_lt_mul (by rw [Nat.mul_comm]; exact hk)
    have hj : k % dims 1 < dims 1 := Nat.mod_lt _ (by omega)
    have hrm : rowMajor dims ![k / dims 1, k % dims 1] = k := by
      rw [rowMajor_succ, rowMajor_succ]
      simp only [rowMajor]
      simp
      rw [Nat.mul_comm]; exact Nat.div_add_mod _ _
    refine h k hk (fun a => ((![k / dims 1, k % dims 1] a : Nat) : K)) ?_ fun a => ?_
    · intro a
      have : ∀ (x n : Nat), x < n → (0 : K) ≤ x ∧ (x : K) ≤ (n : K) - 1 := by
        intro x n hx
        have : ((x + 1 : Nat) : K) ≤ n := by exact_mod_cast hx
        push_cast at this
        exact ⟨by positivity, by linarith⟩
      fin_cases a
      · exact this _ _ hi
      · exact this _ _ hj
    · have := hgrid ![k / dims 1, k % dims 1] (by intro b; fin_cases b <;> assumption) a
      rw [hrm] at this
      exact this
  · rw [List.getElem?_eq_none (by omega), List.getElem?_eq_none (by omega)]

/-- The grid of 3 times 2 nodes at the integers, its cells cut into 2 times 3 parts, and back. -/
example : (do
    let o1 ← (((new 5 (1 / 1000) : NodeInterp ℚ).setSrcGrid ![3, 2] ![0, 0] fun a k => ![((k / 2 : Nat) : ℚ), ((k % 2 : Nat) : ℚ)] a).setDstGrid ![5, 4]
      (fun a k => ![((k / 4 : Nat) : ℚ) / 2, ((k % 4 : Nat) : ℚ) / 3] a)).computeWeights gels2
    let m ← o1.apply [1, 10, 100, 2, 20, 200] (List.replicate 20 7)
    let o2 ← (((new 5 (1 / 1000) : NodeInterp ℚ).setSrcGrid ![5, 4] ![0, 0] fun a k => ![((k / 4 : Nat) : ℚ) / 2, ((k % 4 : Nat) : ℚ) / 3] a).setDstGrid ![3, 2]
      (fun a k => ![((k / 2 : Nat) : ℚ), ((k % 2 : Nat) : ℚ)] a)).computeWeights gels2
    let d ← o2.apply m (List.replicate 6 7)
    return (m.take 6, d)) = .ok ([1, 4, 7, 10, 101 / 2, 107 / 3], [1, 10, 100, 2, 20, 200]) := by decide +kernel

/-- These grids meet the hypotheses. -/
example : AffineGrid ![3, 2] ![0, 0] (1 : Matrix (Fin 2) (Fin 2) ℚ) (fun a k => ![((k / 2 : Nat) : ℚ), ((k % 2 : Nat) : ℚ)] a) ∧
    AffineGrid ![5, 4] ![0, 0] (fun a b => (1 : Matrix (Fin 2) (Fin 2) ℚ) a b / (![2, 3] b : Nat)) (fun a k => ![((k / 4 : Nat) : ℚ) / 2, ((k % 4 : Nat) : ℚ) / 3] a) ∧
    ∀ a : Fin 2, ![5, 4] a = ![2, 3] a * (![3, 2] a - 1) + 1 := by
  refine ⟨?_, ?_, by decide⟩
  all_goals
    intro m hm i
    have h0 := hm 0
    have h1 := hm 1
    simp only [Matrix.cons_val_zero, Matrix.cons_val_one] at h0 h1
    have e : m = ![m 0, m 1] := by ext a; fin_cases a <;> rfl
    rw [e]
    generalize m 0 = x at *
    generalize m 1 = y at *
    interval_cases x <;> interval_cases y <;> fin_cases i <;> decide +kernel

end Sg.Props
