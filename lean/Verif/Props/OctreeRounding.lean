import Verif.Proof.OctreeRounded
import Verif.Props.Octree
/-
Property C106: the octree in rounded arithmetic.  The model is used at `Fl rnd`, the real numbers with every operation rounded.
-/
namespace Sg.Props
open Sg Sg.Spec Sg.Octree

variable {rnd : ℝ → ℝ}

theorem bounds_rounded {n : Nat} (big : Fl rnd) (points : List (Fin n → Fl rnd))
    (hbig : ∀ p ∈ points, ∀ j, -big ≤ p j ∧ p j ≤ big) :
    ∀ p ∈ points, ∀ j, (bounds big points).1 j ≤ p j ∧ p j ≤ (bounds big points).2 j := by
  have lt : ∀ a b : Fl rnd, a < b ↔ a.val < b.val := fun _ _ => Iff.rfl
  have le : ∀ a b : Fl rnd, a ≤ b ↔ a.val ≤ b.val := fun _ _ => Iff.rfl
  have gen : ∀ (pts : List (Fin n → Fl rnd)) (lo hi : Fin n → Fl rnd),
      let r := pts.foldl (fun (lohi : (Fin n → Fl rnd) × (Fin n → Fl rnd)) p => (fun j => if p j < lohi.1 j then p j else lohi.1 j,
                               fun j => if lohi.2 j < p j then p j else lohi.2 j)) (lo, hi)
      (∀ j, r.1 j ≤ lo j ∧ hi j ≤ r.2 j) ∧ ∀ p ∈ pts, ∀ j, r.1 j ≤ p j ∧ p j ≤ r.2 j := by
    intro pts
    induction pts with
    | nil => intro lo hi; exact ⟨fun j => ⟨le_refl (lo j).val, le_refl (hi j).val⟩, by simp⟩
    | cons p pts ih =>
      intro lo hi
      obtain ⟨h1, h2⟩ := ih (fun j => if p j < lo j then p j else lo j)
        (fun j => if hi j < p j then p j else hi j)
      simp only [List.foldl_cons]
      have m1 : ∀ j, (if p j < lo j then p j else lo j).val ≤ (lo j).val ∧ (if p j < lo j then p j else lo j).val ≤ (p j).val := by
        intro j
        split_ifs with h
        · exact ⟨((lt _ _).mp h).le, le_refl _⟩
        · exact ⟨le_refl _, not_lt.mp fun hn => h ((lt _ _).mpr hn)⟩
      have m2 : ∀ j, (hi j).val ≤ (if hi j < p j then p j else hi j).val ∧ (p j).val ≤ (if hi j < p j then p j else hi j).val := by
        intro j
        split_ifs with h
        · exact ⟨((lt _ _).mp h).le, le_refl _⟩
        · exact ⟨le_refl _, not_lt.mp fun hn => h ((lt _ _).mpr hn)⟩
      refine ⟨fun j => ?_, ?_⟩
      · obtain ⟨a, b⟩ := h1 j
        exact ⟨((le _ _).mp a).trans (m1 j).1, (m2 j).1.trans ((le _ _).mp b)⟩
      · intro p' hp' j
        rcases List.mem_cons.1 hp' with rfl | hp'
        · obtain ⟨a, b⟩ := h1 j
          exact ⟨((le _ _).mp a).trans (m1 j).2, (m2 j).2.trans ((le _ _).mp b)⟩
        · exact h2 p' hp' j
  exact (gen points _ _).2

/-- The corners of a stored box. -/
theorem stored_rounded {n : Nat} (xmins xmaxs : Fin n → Fl rnd) (nlevs : Nat) (key : List Nat) (hk : key ≠ [])
    (hl : key.length ≤ nlevs) (hq : ∀ q ∈ key, q < 2 ^ n) :
    (build xmins xmaxs nlevs).getLo key = (computeLoHi xmins xmaxs key).1 ∧
    (build xmins xmaxs nlevs).getHi key = (computeLoHi xmins xmaxs key).2 := by
  have hmem : key ∈ refineKeys (2 ^ n) nlevs [] := (mem_refineKeys _ _ _ _).mpr ⟨key, hk, by simp, hq, .inr (by simpa using hl)⟩
  have : (build xmins xmaxs nlevs).find key = some (computeLoHi xmins xmaxs key) := by
    unfold Tree.find build
    dsimp only
    revert hmem
    generalize refineKeys (2 ^ n) nlevs [] = l
    intro hmem
    induction l with
    | nil => simp at hmem
    | cons a l ih =>
      simp only [List.map_cons, List.find?_cons]
      by_cases h : a = key
      · subst h; simp
      · have h' : ¬ key = a := fun e => h e.symm
        simp only [h, decide_false]
        rcases List.mem_cons.mp hmem with e | hm
        · exact absurd e h'
        · exact ih hm
  unfold Tree.getLo Tree.getHi
  rw [this]
  exact ⟨rfl, rfl⟩

/-- Error of the scaling. -/
theorem place_error {u : ℝ} (hr : Rounds rnd u 0) (hu : u ≤ 1 / 8) {a b v : ℝ} (hab : a ≤ b) (h0 : 0 ≤ v) (h1 : v ≤ 1) :
    |place rnd a b v - (a + v * (b - a))| ≤ u * (4 * (b - a) + |a|) := by
  unfold place
  have hu0 := hr.rel
  have hD : 0 ≤ b - a := by linarith
  generalize b - a = D at hD
  have e1 := hr.err D
  rw [abs_of_nonneg hD, add_zero] at e1
  generalize rnd D = l at e1
  have e2 := hr.err (v * l)
  rw [add_zero] at e2
  have hl : |l| ≤ (1 + u) * D := by
    have := abs_le.mp e1
    rw [abs_le]
    constructor
    · have : 0 ≤ u * D := by positivity
      nlinarith
    · linarith
  have hvl : |v * l| ≤ (1 + u) * D := by
    rw [abs_mul, abs_of_nonneg h0]
    calc v * |l| ≤ 1 * |l| := by gcongr
      _ ≤ _ := by linarith
  have e3 : |v * l - v * D| ≤ u * D := by
    rw [← mul_sub, abs_mul, abs_of_nonneg h0]
    calc v * |l - D| ≤ 1 * |l - D| := by gcongr
      _ ≤ _ := by linarith
  generalize rnd (v * l) = w at e2
  have e4 : |w - v * D| ≤ (2 * u + u * u) * D := by
    have : u * |v * l| ≤ u * ((1 + u) * D) := by gcongr
    calc |w - v * D| = |(w - v * l) + (v * l - v * D)| := by ring_nf
      _ ≤ |w - v * l| + |v * l - v * D| := abs_add_le _ _
      _ ≤ u * ((1 + u) * D) + u * D := by linarith
      _ = _ := by ring
  have hw : |w| ≤ (1 + 2 * u + u * u) * D := by
    have hv : |v * D| ≤ D := by rw [abs_of_nonneg (by positivity)]; nlinarith
    calc |w| = |(w - v * D) + v * D| := by ring_nf
      _ ≤ |w - v * D| + |v * D| := abs_add_le _ _
      _ ≤ _ := by linarith
  have e5 := hr.err (w + a)
  rw [add_zero] at e5
  have e6 : u * |w + a| ≤ u * ((1 + 2 * u + u * u) * D + |a|) := by
    gcongr
    exact (abs_add_le _ _).trans (by linarith)
  have huu : u * u ≤ u * (1 / 8) := by gcongr
  have huD : 0 ≤ u * D := by positivity
  calc |rnd (w + a) - (a + v * D)| = |(rnd (w + a) - (w + a)) + (w - v * D)| := by ring_nf
    _ ≤ |rnd (w + a) - (w + a)| + |w - v * D| := abs_add_le _ _
    _ ≤ u * ((1 + 2 * u + u * u) * D + |a|) + (2 * u + u * u) * D := by linarith
    _ = u * |a| + (3 * (u * D) + 3 * (u * u) * D + u * (u * u) * D) := by ring
    _ ≤ u * |a| + (3 * (u * D) + 3 * (u * (1 / 8)) * D + u * (u * (1 / 8)) * D) := by gcongr
    _ = u * |a| + (3 * (u * D) + 3 / 8 * (u * D) + 1 / 8 * (u * u) * D) := by ring
    _ ≤ u * |a| + (3 * (u * D) + 3 / 8 * (u * D) + 1 / 8 * (u * (1 / 8)) * D) := by gcongr
    _ ≤ u * (4 * D + |a|) := by nlinarith

/-- Error of the normalised coordinate. -/
theorem normalise_rounded {L n : Nat} {u : ℝ} (h : KeepsDyadics rnd L) (hr : Rounds rnd u 0) (hu : u ≤ 1 / 8) (xmins xmaxs p : Fin n → Fl rnd)
    (j : Fin n) (h0 : (xmins j).val ≤ (p j).val) (h1 : (p j).val ≤ (xmaxs j).val) :
    0 ≤ (normalise xmins xmaxs p j).val ∧ (normalise xmins xmaxs p j).val ≤ 1 ∧
      |(normalise xmins xmaxs p j).val * ((xmaxs j).val - (xmins j).val) - ((p j).val - (xmins j).val)| ≤
        u * (4 * ((xmaxs j).val - (xmins j).val)) := by
  have hu0 := hr.rel
  have hval : (normalise xmins xmaxs p j).val = rnd (rnd ((p j).val - (xmins j).val) / rnd ((xmaxs j).val - (xmins j).val)) := by
    have hy : 0 ≤ rnd ((p j).val - (xmins j).val) := h.nonneg (by linarith)
    have hyl : rnd ((p j).val - (xmins j).val) ≤ rnd ((xmaxs j).val - (xmins j).val) := h.mono (by linarith)
    have hz0 : 0 ≤ rnd (rnd ((p j).val - (xmins j).val) / rnd ((xmaxs j).val - (xmins j).val)) :=
      h.nonneg (div_nonneg hy (hy.trans hyl))
    have hz1 : rnd (rnd ((p j).val - (xmins j).val) / rnd ((xmaxs j).val - (xmins j).val)) ≤ 1 :=
      h.le_one (div_le_one_of_le₀ hyl (hy.trans hyl))
    have lt : ∀ a b : Fl rnd, a < b ↔ a.val < b.val := fun _ _ => Iff.rfl
    have hq : ((p j - xmins j) / (xmaxs j - xmins j)).val =
      rnd (rnd ((p j).val - (xmins j).val) / rnd ((xmaxs j).val - (xmins j).val)) := rfl
    unfold normalise cmin cmax
    dsimp only
    rw [← hq] at hz0 hz1 ⊢
    generalize (p j - xmins j) / (xmaxs j - xmins j) = q at hz0 hz1 ⊢
    by_cases hc : (0 : Fl rnd) < q
    · rw [if_pos hc]
      by_cases hc' : q < 1
      · rw [if_pos hc']
      · rw [if_neg hc']
        have : ¬ q.val < 1 := fun hn => hc' ((lt _ _).mpr hn)
        show (1 : ℝ) = q.val
        linarith
    · rw [if_neg hc]
      have : ¬ 0 < q.val := fun hn => hc ((lt _ _).mpr hn)
      have h01 : (0 : Fl rnd) < 1 := (lt _ _).mpr (by show (0 : ℝ) < 1; norm_num)
      rw [if_pos h01]
      show (0 : ℝ) = q.val
      linarith
  have hy : 0 ≤ rnd ((p j).val - (xmins j).val) := h.nonneg (by linarith)
  have hyl : rnd ((p j).val - (xmins j).val) ≤ rnd ((xmaxs j).val - (xmins j).val) := h.mono (by linarith)
  rw [hval]
  refine ⟨h.nonneg (div_nonneg hy (hy.trans hyl)), h.le_one (div_le_one_of_le₀ hyl (hy.trans hyl)), ?_⟩
  have e1 := hr.err ((p j).val - (xmins j).val)
  have e2 := hr.err ((xmaxs j).val - (xmins j).val)
  have e3 := hr.err (rnd ((p j).val - (xmins j).val) / rnd ((xmaxs j).val - (xmins j).val))
  rw [abs_of_nonneg (show 0 ≤ (p j).val - (xmins j).val by linarith), add_zero] at e1
  rw [abs_of_nonneg (show 0 ≤ (xmaxs j).val - (xmins j).val by linarith), add_zero] at e2
  rw [add_zero] at e3
  have hle : (p j).val - (xmins j).val ≤ (xmaxs j).val - (xmins j).val := by linarith
  have hc0 : 0 ≤ (p j).val - (xmins j).val := by linarith
  generalize (p j).val - (xmins j).val = c at *
  generalize (xmaxs j).val - (xmins j).val = D at *
  generalize rnd c = y at *
  generalize rnd D = l at *
  have hz0 : 0 ≤ y / l := div_nonneg hy (hy.trans hyl)
  have hz1 : y / l ≤ 1 := div_le_one_of_le₀ hyl (hy.trans hyl)
  rw [abs_of_nonneg hz0] at e3
  have hD : 0 ≤ D := hc0.trans hle
  have hzD : |y / l * D - c| ≤ u * (3 * D) := by
    rcases hD.eq_or_lt with rfl | hD
    · have : c = 0 := le_antisymm hle hc0
      subst this; simp
    have hlpos : 0 < l := by
      have := (abs_le.mp e2).1
      nlinarith
    have hzl : y / l * l = y := div_mul_cancel₀ _ hlpos.ne'
    have k1 : |y / l * D - y| ≤ u * D := by
      have : y / l * D - y = y / l * (D - l) := by rw [mul_sub, hzl]
      rw [this, abs_mul, abs_of_nonneg hz0, abs_sub_comm]
      calc y / l * |l - D| ≤ 1 * |l - D| := by gcongr
        _ ≤ _ := by linarith
    have : u * c ≤ u * D := by gcongr
    have huD : 0 ≤ u * D := by positivity
    calc |y / l * D - c| = |(y / l * D - y) + (y - c)| := by ring_nf
      _ ≤ |y / l * D - y| + |y - c| := abs_add_le _ _
      _ ≤ _ := by linarith
  calc |rnd (y / l) * D - c| = |(rnd (y / l) - y / l) * D + (y / l * D - c)| := by ring_nf
    _ ≤ |(rnd (y / l) - y / l) * D| + |y / l * D - c| := abs_add_le _ _
    _ ≤ u * 1 * D + u * (3 * D) := by
      rw [abs_mul, abs_of_nonneg hD]
      have : |rnd (y / l) - y / l| * D ≤ u * 1 * D := by
        gcongr
        exact e3.trans (by gcongr)
      linarith
    _ = _ := by ring

/-- **C106** In an arithmetic with roundings of relative error at most `u ≤ 1/8` that keep the order and the binary fractions of
the tree, every point lies in the box of its key, at every level, up to `u` times nine times the extent of the domain plus the size of its lower bound. -/
theorem C106_contains_partial {n nlevs : Nat} {u : ℝ} (h : KeepsDyadics rnd nlevs) (hr : Rounds rnd u 0) (hu : u ≤ 1 / 8) (big : Fl rnd)
    (points : List (Fin n → Fl rnd)) (t : Tree (Fl rnd) n) (hnew : Octree.new big nlevs points = .ok t)
    (hbig : ∀ p ∈ points, ∀ j, -big ≤ p j ∧ p j ≤ big) (p : Fin n → Fl rnd) (hp : p ∈ points) (lev : Nat) (hlev : lev ≤ nlevs) (j : Fin n) :
    let slack := u * (9 * ((t.xmaxs j).val - (t.xmins j).val) + |(t.xmins j).val|)
    (t.getLo (getKey t.xmins t.xmaxs p lev) j).val - slack ≤ (p j).val ∧
      (p j).val ≤ (t.getHi (getKey t.xmins t.xmaxs p lev) j).val + slack := by
  unfold Octree.new at hnew
  split at hnew
  · cases hnew
  cases hnew
  have hb := bounds_rounded big points hbig p hp
  show ((build (bounds big points).1 (bounds big points).2 nlevs).getLo (getKey (bounds big points).1 (bounds big points).2 p lev) j).val -
      u * (9 * (((bounds big points).2 j).val - ((bounds big points).1 j).val) + |((bounds big points).1 j).val|) ≤ (p j).val ∧
    (p j).val ≤ ((build (bounds big points).1 (bounds big points).2 nlevs).getHi
      (getKey (bounds big points).1 (bounds big points).2 p lev) j).val +
      u * (9 * (((bounds big points).2 j).val - ((bounds big points).1 j).val) + |((bounds big points).1 j).val|)
  generalize (bounds big points).1 = xmins at *
  generalize (bounds big points).2 = xmaxs at *
  have hu0 := hr.rel
  obtain ⟨ha, hb'⟩ := hb j
  replace ha : (xmins j).val ≤ (p j).val := ha
  replace hb' : (p j).val ≤ (xmaxs j).val := hb'
  have hD : 0 ≤ (xmaxs j).val - (xmins j).val := by linarith
  have hs := mul_nonneg hu0 (add_nonneg (mul_nonneg (by norm_num : (0 : ℝ) ≤ 9) hD) (abs_nonneg (xmins j).val))
  rcases Nat.eq_zero_or_pos lev with rfl | hpos
  · have hf : (build xmins xmaxs nlevs).find [] = none := by
      cases hc : (build xmins xmaxs nlevs).find [] with
      | none => rfl
      | some b =>
        have := (C17_stored_keys xmins xmaxs nlevs []).mp ⟨b, hc⟩
        simp at this
    have hk : getKey xmins xmaxs p 0 = [] := rfl
    unfold Tree.getLo Tree.getHi
    rw [hk, hf]
    exact ⟨by show (xmins j).val - _ ≤ _; linarith, by show _ ≤ (xmaxs j).val + _; linarith⟩
  have hd := C14_key_shape xmins xmaxs p lev
  have hne : getKey xmins xmaxs p lev ≠ [] := by
    intro e; rw [e] at hd; simp at hd; omega
  obtain ⟨s1, s2⟩ := stored_rounded xmins xmaxs nlevs (getKey xmins xmaxs p lev) hne (by rw [hd.1]; exact hlev) hd.2
  obtain ⟨c1, c2⟩ := computeLoHi_rounded h xmins xmaxs (getKey xmins xmaxs p lev) hne (by rw [hd.1]; exact hlev) j
  rw [s1, s2, c1, c2, hd.1]
  have hx : ∀ j, 0 ≤ (normalise xmins xmaxs p j).val ∧ (normalise xmins xmaxs p j).val ≤ 1 := fun j =>
    ⟨(normalise_rounded h hr hu xmins xmaxs p j (hb j).1 (hb j).2).1, (normalise_rounded h hr hu xmins xmaxs p j (hb j).1 (hb j).2).2.1⟩
  obtain ⟨-, -, hn⟩ := normalise_rounded h hr hu xmins xmaxs p j ha hb'
  have hdig := keyFrom_rounded h hr (normalise xmins xmaxs p) lev 0 (fun _ => 0) (fun _ => 0) (by omega) (by simp) (by simp [Fl.zero_val])
    (fun j => by
      have := hx j
      simp only [Fl.zero_val, sub_zero, pow_zero, div_one]
      constructor <;> linarith) j
  rw [Nat.zero_add] at hdig
  have hkey : getKey xmins xmaxs p lev = keyFrom (normalise xmins xmaxs p) lev 0 (fun _ => 0) := rfl
  rw [← hkey] at hdig
  have hlt := binary_lt n j (getKey xmins xmaxs p lev) 0 0 (by norm_num)
  rw [Nat.zero_add, hd.1] at hlt
  generalize binary n j (getKey xmins xmaxs p lev) 0 = B at *
  have hP : (0 : ℝ) < 2 ^ lev := by positivity
  have hB : (B : ℝ) + 1 ≤ 2 ^ lev := by exact_mod_cast hlt
  have v0 : (0 : ℝ) ≤ B / 2 ^ lev := by positivity
  have v1 : (B : ℝ) / 2 ^ lev ≤ 1 := by rw [div_le_one hP]; linarith
  have w0 : (0 : ℝ) ≤ (B + 1 : ℕ) / 2 ^ lev := by positivity
  have w1 : ((B + 1 : ℕ) : ℝ) / 2 ^ lev ≤ 1 := by rw [div_le_one hP]; push_cast; linarith
  have hw : ((B + 1 : ℕ) : ℝ) / 2 ^ lev = B / 2 ^ lev + 1 / 2 ^ lev := by push_cast; ring
  have p1 := abs_le.mp (place_error hr hu (ha.trans hb') v0 v1)
  have p2 := abs_le.mp (place_error hr hu (ha.trans hb') w0 w1)
  rw [hw] at p2 ⊢
  have hn := abs_le.mp hn
  generalize (normalise xmins xmaxs p j).val = x at *
  generalize (xmaxs j).val - (xmins j).val = D at *
  generalize place rnd (xmins j).val (xmaxs j).val (B / 2 ^ lev) = lo at *
  generalize place rnd (xmins j).val (xmaxs j).val (B / 2 ^ lev + 1 / 2 ^ lev) = hi at *
  have q1 : -u * D ≤ (x - B / 2 ^ lev) * D := by gcongr; exact hdig.1
  have q2 : (x - B / 2 ^ lev) * D ≤ 1 / 2 ^ lev * D := by gcongr; exact hdig.2
  constructor <;> nlinarith

/-- **C106** In such an arithmetic the boxes of the tree fit together without gap or overlap: two children of a box on either side of
its middle share that border exactly, and their outer borders are exactly those of the box. -/
theorem C106_tiling_partial {n nlevs : Nat} (h : KeepsDyadics rnd nlevs) (xmins xmaxs : Fin n → Fl rnd) (hdom : ∀ j, xmins j ≤ xmaxs j)
    (key : List Nat) (q q' : Nat) (hl : key.length + 1 ≤ nlevs) (hk : ∀ d ∈ key, d < 2 ^ n) (hq : q < 2 ^ n) (hq' : q' < 2 ^ n)
    (j : Fin n) (h0 : childHalf n q j = 0) (h1 : childHalf n q' j = 1) :
    let t := build xmins xmaxs nlevs
    t.getHi (key ++ [q]) j = t.getLo (key ++ [q']) j ∧ t.getLo (key ++ [q]) j ≤ t.getHi (key ++ [q]) j ∧
      t.getHi (key ++ [q]) j ≤ t.getHi (key ++ [q']) j ∧
      (key ≠ [] → t.getLo (key ++ [q]) j = t.getLo key j ∧ t.getHi (key ++ [q']) j = t.getHi key j) := by
  intro t
  have hi0 : getIndices n q j = 0 := by rw [← h0]; unfold getIndices childHalf; rw [prodDims_eq n j j.2]
  have hi1 : getIndices n q' j = 1 := by rw [← h1]; unfold getIndices childHalf; rw [prodDims_eq n j j.2]
  have hmem : ∀ r < 2 ^ n, ∀ d ∈ key ++ [r], d < 2 ^ n := by
    intro r hr d hd
    rcases List.mem_append.mp hd with hd | hd
    · exact hk d hd
    · rw [List.mem_singleton.mp hd]; exact hr
  obtain ⟨a1, a2⟩ := stored_rounded xmins xmaxs nlevs (key ++ [q]) (by simp) (by simpa using hl) (hmem q hq)
  obtain ⟨b1, b2⟩ := stored_rounded xmins xmaxs nlevs (key ++ [q']) (by simp) (by simpa using hl) (hmem q' hq')
  obtain ⟨c1, c2⟩ := computeLoHi_rounded h xmins xmaxs (key ++ [q]) (by simp) (by simpa using hl) j
  obtain ⟨d1, d2⟩ := computeLoHi_rounded h xmins xmaxs (key ++ [q']) (by simp) (by simpa using hl) j
  have e0 : binary n j (key ++ [q]) 0 = 2 * binary n j key 0 := by rw [binary_append]; simp [binary, hi0]
  have e1 : binary n j (key ++ [q']) 0 = 2 * binary n j key 0 + 1 := by rw [binary_append]; simp [binary, hi1]
  have hlen : ∀ r : Nat, (key ++ [r]).length = key.length + 1 := by simp
  rw [e0, hlen] at c1 c2
  rw [e1, hlen] at d1 d2
  have hmono : ∀ v w : ℝ, v ≤ w → place rnd (xmins j).val (xmaxs j).val v ≤ place rnd (xmins j).val (xmaxs j).val w := by
    intro v w hvw
    have : 0 ≤ rnd ((xmaxs j).val - (xmins j).val) := h.nonneg (by have : (xmins j).val ≤ (xmaxs j).val := hdom j; linarith)
    exact h.mono (by have := h.mono (mul_le_mul_of_nonneg_right hvw this); linarith)
  refine ⟨?_, ?_, ?_, fun hne => ?_⟩
  · show (build xmins xmaxs nlevs).getHi (key ++ [q]) j = (build xmins xmaxs nlevs).getLo (key ++ [q']) j
    ext
    rw [a2, b1, c2, d1]
  · show ((build xmins xmaxs nlevs).getLo (key ++ [q]) j).val ≤ ((build xmins xmaxs nlevs).getHi (key ++ [q]) j).val
    rw [a1, a2, c1, c2]
    apply hmono
    gcongr
    omega
  · show ((build xmins xmaxs nlevs).getHi (key ++ [q]) j).val ≤ ((build xmins xmaxs nlevs).getHi (key ++ [q']) j).val
    rw [a2, b2, c2, d2]
    apply hmono
    gcongr
    omega
  · obtain ⟨f1, f2⟩ := stored_rounded xmins xmaxs nlevs key hne (by omega) hk
    obtain ⟨g1, g2⟩ := computeLoHi_rounded h xmins xmaxs key hne (by omega) j
    constructor
    · show (build xmins xmaxs nlevs).getLo (key ++ [q]) j = (build xmins xmaxs nlevs).getLo key j
      ext
      rw [a1, f1, c1, g1]
      congr 1
      push_cast
      rw [pow_succ]; field_simp
    · show (build xmins xmaxs nlevs).getHi (key ++ [q']) j = (build xmins xmaxs nlevs).getHi key j
      ext
      rw [b2, f2, d2, g2]
      congr 1
      push_cast
      rw [pow_succ]; field_simp
      ring

/-- Rounding to nearest with 53 binary digits keeps the fractions of trees with up to 52 levels. -/
theorem nearest_keeps {L : Nat} (hL : L ≤ 52) : KeepsDyadics (nearest 53) L where
  mono := nearest_mono (by norm_num)
  two := by
    have := nearest_exact (p := 53) (m := 1) (k := 1) (by norm_num)
    simpa using this
  pow i _ := by
    have := nearest_exact (p := 53) (m := 1) (k := (i : ℤ)) (by norm_num)
    simpa using this
  frac i hi k hk := by
    have hlt : |(k : ℤ)| < 2 ^ 53 := by
      rw [abs_of_nonneg (by positivity)]
      have : k ≤ 2 ^ 52 := hk.trans (Nat.pow_le_pow_right (by norm_num) (hi.trans hL))
      have : (2 : Nat) ^ 52 < 2 ^ 53 := by norm_num
      exact_mod_cast (by omega : k < 2 ^ 53)
    have := nearest_exact (p := 53) (m := (k : ℤ)) (k := -(i : ℤ)) hlt
    rw [zpow_neg, zpow_natCast] at this
    push_cast at this
    simpa [div_eq_mul_inv] using this

/-- The point `a` of a line. -/
noncomputable def onLine (a : ℝ) : Fin 1 → Fl (nearest 53) := fun _ => ⟨a⟩

/-- **C106** Exact containment fails in double precision: of the points `-5/2^56` and 1, the second lies outside the box of its key, which ends
at `1 - 2^-53`. -/
theorem C106_contains_refuted : ∃ t : Tree (Fl (nearest 53)) 1,
    Octree.new ⟨2⟩ 1 [onLine (-5 / 2 ^ 56), onLine 1] = .ok t ∧
      (t.getHi (getKey t.xmins t.xmaxs (onLine 1) 1) 0).val < 1 := by
  have hK : KeepsDyadics (nearest 53) 1 := nearest_keeps (by norm_num)
  have lt : ∀ a b : Fl (nearest 53), a < b ↔ a.val < b.val := fun _ _ => Iff.rfl
  have hlo : (bounds (⟨2⟩ : Fl (nearest 53)) [onLine (-5 / 2 ^ 56), onLine 1]).1 = onLine (-5 / 2 ^ 56) := by
    funext j
    show (if onLine 1 j < (if onLine (-5 / 2 ^ 56) j < (⟨2⟩ : Fl (nearest 53)) then _ else _) then _ else _) = _
    rw [if_pos (show onLine (-5 / 2 ^ 56) j < (⟨2⟩ : Fl (nearest 53)) by rw [lt]; show (-5 / 2 ^ 56 : ℝ) < 2; norm_num)]
    rw [if_neg (show ¬ onLine 1 j < onLine (-5 / 2 ^ 56) j by rw [lt]; show ¬ (1 : ℝ) < -5 / 2 ^ 56; norm_num)]
    exact if_pos (show onLine (-5 / 2 ^ 56) j < (⟨2⟩ : Fl (nearest 53)) by rw [lt]; show (-5 / 2 ^ 56 : ℝ) < 2; norm_num)
  have hhi : (bounds (⟨2⟩ : Fl (nearest 53)) [onLine (-5 / 2 ^ 56), onLine 1]).2 = onLine 1 := by
    funext j
    show (if (if -(⟨2⟩ : Fl (nearest 53)) < onLine (-5 / 2 ^ 56) j then _ else _) < onLine 1 j then _ else _) = _
    rw [if_pos (show -(⟨2⟩ : Fl (nearest 53)) < onLine (-5 / 2 ^ 56) j by rw [lt]; show -(2 : ℝ) < -5 / 2 ^ 56; norm_num)]
    rw [if_pos (show onLine (-5 / 2 ^ 56) j < onLine 1 j by rw [lt]; show (-5 / 2 ^ 56 : ℝ) < 1; norm_num)]
  have hlen : nearest 53 (1 - -5 / 2 ^ 56) = 1 := by
    have := nearest_eq (p := 53) (x := 1 - -5 / 2 ^ 56) (e := 0) (m := 2 ^ 52) (by norm_num) (by norm_num) (by norm_num) (by norm_num)
    rw [this]; norm_num
  have hend : nearest 53 (1 + -5 / 2 ^ 56) = 1 - 1 / 2 ^ 53 := by
    have := nearest_eq (p := 53) (x := 1 + -5 / 2 ^ 56) (e := -1) (m := 2 ^ 53 - 1) (by norm_num) (by norm_num) (by norm_num) (by norm_num)
    rw [this]; norm_num
  have hkey : getKey (onLine (-5 / 2 ^ 56)) (onLine 1) (onLine 1) 1 = [1] := by
    have hx : normalise (onLine (-5 / 2 ^ 56)) (onLine 1) (onLine 1) 0 = 1 := by
      have hq : ((onLine 1 0 - onLine (-5 / 2 ^ 56) 0) / (onLine 1 0 - onLine (-5 / 2 ^ 56) 0)) = 1 := by
        ext
        show nearest 53 (nearest 53 (1 - -5 / 2 ^ 56) / nearest 53 (1 - -5 / 2 ^ 56)) = 1
        rw [hlen, div_one]; exact hK.one
      unfold normalise cmin cmax
      dsimp only
      rw [hq, if_pos (show (0 : Fl (nearest 53)) < 1 by rw [lt]; show (0 : ℝ) < 1; norm_num), if_neg (by rw [lt]; exact lt_irrefl _)]
    have hd : axisIndex (two_pow (0 + 1)) (1 : Fl (nearest 53)) 0 = 1 := by
      rw [axisIndex_rounded, hK.two_pow_val 1 le_rfl]
      have : nearest 53 (nearest 53 ((1 : Fl (nearest 53)).val - (0 : Fl (nearest 53)).val) * 2 ^ 1) = 2 := by
        show nearest 53 (nearest 53 (1 - 0) * 2 ^ 1) = 2
        rw [sub_zero, hK.one, one_mul, pow_one, hK.two]
      rw [this, if_pos (by norm_num)]
    unfold getKey
    simp only [keyFrom, Fin.sum_univ_one, hx, hd]
    have : prodDims 1 ((0 : Fin 1) : Nat) = 1 := by rw [prodDims_eq 1 _ (by norm_num)]; rfl
    rw [this]
  refine ⟨build (onLine (-5 / 2 ^ 56)) (onLine 1) 1, ?_, ?_⟩
  · unfold Octree.new
    rw [if_neg (by norm_num), hlo, hhi]
  · show ((build (onLine (-5 / 2 ^ 56)) (onLine 1) 1).getHi (getKey (onLine (-5 / 2 ^ 56)) (onLine 1) (onLine 1) 1) 0).val < 1
    rw [hkey, (stored_rounded _ _ 1 [1] (by simp) (by simp) (by simp)).2,
      (computeLoHi_rounded hK _ _ [1] (by simp) (by simp) 0).2]
    have hb : binary 1 ((0 : Fin 1) : Nat) [1] 0 = 1 := by
      have : prodDims 1 ((0 : Fin 1) : Nat) = 1 := by rw [prodDims_eq 1 _ (by norm_num)]; rfl
      simp only [binary, List.foldl_cons, List.foldl_nil, getIndices, this]
    rw [hb]
    show nearest 53 (nearest 53 (((1 + 1 : ℕ) : ℝ) / 2 ^ 1 * nearest 53 (1 - -5 / 2 ^ 56)) + -5 / 2 ^ 56) < 1
    rw [hlen]
    have : ((1 + 1 : ℕ) : ℝ) / 2 ^ 1 * 1 = 1 := by norm_num
    rw [this, hK.one, hend]
    norm_num

/-- The hypotheses of `C106_contains_partial` hold in double precision for these points: they are within `10·2^-53` of their boxes. -/
example (t : Tree (Fl (nearest 53)) 1) (ht : Octree.new ⟨2⟩ 1 [onLine (-5 / 2 ^ 56), onLine 1] = .ok t) :
    1 ≤ (t.getHi (getKey t.xmins t.xmaxs (onLine 1) 1) 0).val +
      2 ^ (-(53 : ℤ)) * (9 * ((t.xmaxs 0).val - (t.xmins 0).val) + |(t.xmins 0).val|) := by
  have := (C106_contains_partial (nearest_keeps (L := 1) (by norm_num)) (nearest_rounds 53) (by norm_num) ⟨2⟩
    [onLine (-5 / 2 ^ 56), onLine 1] t ht (by
      intro p hp j
      have le : ∀ a b : Fl (nearest 53), a ≤ b ↔ a.val ≤ b.val := fun _ _ => Iff.rfl
      have neg : (-(⟨2⟩ : Fl (nearest 53))).val = -2 := rfl
      simp only [List.mem_cons, List.not_mem_nil, or_false] at hp
      rw [le, le, neg]
      rcases hp with rfl | rfl
      · show (-2 : ℝ) ≤ -5 / 2 ^ 56 ∧ (-5 / 2 ^ 56 : ℝ) ≤ 2
        norm_num
      · show (-2 : ℝ) ≤ 1 ∧ (1 : ℝ) ≤ 2
        norm_num) (onLine 1) (by simp) 1 le_rfl 0).2
  exact this

/-- Children 0 and 1 of a box on a line, twenty levels deep. -/
example (key : List Nat) (hk : key.length = 19) (hd : ∀ d ∈ key, d < 2 ^ 1) :
    (build (onLine (-5 / 2 ^ 56)) (onLine 1) 20).getHi (key ++ [0]) 0 = (build (onLine (-5 / 2 ^ 56)) (onLine 1) 20).getLo (key ++ [1]) 0 :=
  (C106_tiling_partial (nearest_keeps (L := 20) (by norm_num)) (onLine (-5 / 2 ^ 56)) (onLine 1)
    (fun _ => by show (-5 / 2 ^ 56 : ℝ) ≤ 1; norm_num) key 0 1 (by omega) hd (by norm_num) (by norm_num) 0 (by decide) (by decide)).1

end Sg.Props
