import Verif.Proof.Octree
import Verif.Proof.Rounded
/-
The octree in rounded arithmetic: the boxes in terms of binary fractions, and the digits of a key.
-/
namespace Sg.Octree
open Sg.Spec

variable {rnd : ℝ → ℝ}

/-- `floor` of a number of the rounded arithmetic is exact. -/
noncomputable instance instFloorFl : HasFloor (Fl rnd) := ⟨fun x => ⟨((⌊x.val⌋ : ℤ) : ℝ)⟩⟩

section keeps
variable {L : Nat} (h : KeepsDyadics rnd L)
include h

theorem _root_.Sg.Spec.KeepsDyadics.zero : rnd 0 = 0 := by simpa using h.frac 0 (Nat.zero_le _) 0 (by simp)
theorem _root_.Sg.Spec.KeepsDyadics.one : rnd 1 = 1 := by simpa using h.frac 0 (Nat.zero_le _) 1 (by simp)
theorem _root_.Sg.Spec.KeepsDyadics.nonneg {x : ℝ} (hx : 0 ≤ x) : 0 ≤ rnd x := by rw [← h.zero]; exact h.mono hx
theorem _root_.Sg.Spec.KeepsDyadics.le_one {x : ℝ} (hx : x ≤ 1) : rnd x ≤ 1 := by rw [← h.one]; exact h.mono hx

theorem _root_.Sg.Spec.KeepsDyadics.bit {b : Nat} (hb : b ≤ 1) : rnd (b : ℝ) = b := by
  have : b = 0 ∨ b = 1 := by omega
  rcases this with rfl | rfl
  · simpa using h.zero
  · simpa using h.one

theorem _root_.Sg.Spec.KeepsDyadics.two_pow_val : ∀ i ≤ L, (two_pow i : Fl rnd).val = 2 ^ i
  | 0, _ => by simp [two_pow]; rfl
  | i + 1, hi => by
    have : (two_pow (i + 1) : Fl rnd).val = rnd ((two_pow i : Fl rnd).val * rnd (1 + 1)) := rfl
    rw [this, two_pow_val i (by omega), show (1 : ℝ) + 1 = 2 by norm_num, h.two, ← pow_succ, h.pow _ hi]

end keeps

/-- The binary number along axis `j` that the digits of a key continue. -/
def binary (n j : Nat) (key : List Nat) (acc : Nat) : Nat := key.foldl (fun acc q => 2 * acc + getIndices n q j) acc

theorem getIndices_le_one (n q j : Nat) : getIndices n q j ≤ 1 := by unfold getIndices; omega

theorem binary_lt (n j : Nat) : ∀ (key : List Nat) (acc el : Nat), acc < 2 ^ el → binary n j key acc < 2 ^ (el + key.length)
  | [], acc, el, h => h
  | q :: key, acc, el, h => by
    have := getIndices_le_one n q j
    have := binary_lt n j key (2 * acc + getIndices n q j) (el + 1) (by rw [pow_succ]; omega)
    have e : el + (q :: key).length = el + 1 + key.length := by simp; omega
    rw [e]
    exact this

theorem binary_append (n j : Nat) (key key' : List Nat) (acc : Nat) : binary n j (key ++ key') acc = binary n j key' (binary n j key acc) := by
  unfold binary; rw [List.foldl_append]

theorem half_pow (el : Nat) : (1 : ℝ) / 2 ^ (el + 1) / 2 = 1 / 2 ^ (el + 2) := by
  rw [pow_succ (2 : ℝ) (el + 1)]; field_simp

/-- Before scaling, the corners are exact. -/
theorem loHiFrom_exact {L n : Nat} (h : KeepsDyadics rnd L) : ∀ (key : List Nat) (el : Nat) (dx : Fl rnd) (lo hi : Fin n → Fl rnd)
    (acc : Fin n → Nat), el + key.length ≤ L → (key ≠ [] → dx.val = 1 / 2 ^ (el + 1)) → (∀ j, acc j < 2 ^ el) →
    (∀ j, (lo j).val = acc j / 2 ^ el) →
    (∀ j, ((loHiFrom key dx lo hi).1 j).val = binary n j key (acc j) / 2 ^ (el + key.length)) ∧
    (key ≠ [] → ∀ j, ((loHiFrom key dx lo hi).2 j).val = (binary n j key (acc j) + 1 : ℕ) / 2 ^ (el + key.length)) ∧
    (key = [] → loHiFrom key dx lo hi = (lo, hi))
  | [], el, dx, lo, hi, acc, _, _, _, hlo => ⟨hlo, fun h => absurd rfl h, fun _ => rfl⟩
  | q :: key, el, dx, lo, hi, acc, hL, hdx, hacc, hlo => by
    have hdx := hdx (by simp)
    simp only [List.length_cons] at hL
    have hp : (0 : ℝ) < 2 ^ (el + 1) := by positivity
    have hacc' : ∀ j : Fin n, 2 * acc j + getIndices n q j < 2 ^ (el + 1) := by
      intro j
      have := getIndices_le_one n q j
      have := hacc j
      rw [pow_succ]; omega
    have hlo' : ∀ j : Fin n, (lo j + (getIndices n q j : Fl rnd) * dx).val = (2 * acc j + getIndices n q j : ℕ) / 2 ^ (el + 1) := by
      intro j
      rw [Fl.add_val, Fl.mul_val, Fl.natCast_val, h.bit (getIndices_le_one n q j), hdx, hlo]
      have e1 : (getIndices n q j : ℝ) * (1 / 2 ^ (el + 1)) = (getIndices n q j : ℕ) / 2 ^ (el + 1) := by ring
      rw [e1, h.frac _ (by omega) _ ((getIndices_le_one n q j).trans Nat.one_le_two_pow)]
      have e2 : (acc j : ℝ) / 2 ^ el + (getIndices n q j : ℕ) / 2 ^ (el + 1) = (2 * acc j + getIndices n q j : ℕ) / 2 ^ (el + 1) := by
        push_cast; rw [pow_succ]; field_simp
      rw [e2, h.frac _ (by omega) _ (hacc' j).le]
    have hhi' : ∀ j : Fin n, (lo j + (getIndices n q j : Fl rnd) * dx + dx).val =
        (2 * acc j + getIndices n q j + 1 : ℕ) / 2 ^ (el + 1) := by
      intro j
      rw [Fl.add_val, hlo', hdx]
      have e2 : ((2 * acc j + getIndices n q j : ℕ) : ℝ) / 2 ^ (el + 1) + 1 / 2 ^ (el + 1) =
          (2 * acc j + getIndices n q j + 1 : ℕ) / 2 ^ (el + 1) := by push_cast; ring
      rw [e2, h.frac _ (by omega) _ (hacc' j)]
    have hdx' : key ≠ [] → (dx / (1 + 1)).val = 1 / 2 ^ (el + 1 + 1) := by
      intro hk
      have hl : 0 < key.length := List.length_pos_of_ne_nil hk
      have : (dx / (1 + 1)).val = rnd (dx.val / rnd (1 + 1)) := rfl
      rw [this, show (1 : ℝ) + 1 = 2 by norm_num, h.two, hdx, half_pow]
      have := h.frac (el + 2) (by omega) 1 Nat.one_le_two_pow
      simpa using this
    obtain ⟨r1, r2, r3⟩ := loHiFrom_exact h key (el + 1) (dx / (1 + 1)) (fun j => lo j + (getIndices n q j : Fl rnd) * dx)
      (fun j => lo j + (getIndices n q j : Fl rnd) * dx + dx) (fun j => 2 * acc j + getIndices n q j) (by omega) hdx' hacc' hlo'
    have e : el + (q :: key).length = el + 1 + key.length := by simp; omega
    refine ⟨fun j => ?_, fun _ j => ?_, by simp⟩
    · rw [e]; exact r1 j
    · rw [e]
      by_cases hk : key = []
      · subst hk
        exact hhi' j
      · exact r2 hk j

/-- What the scaling does to a fraction of the domain. -/
noncomputable def place (rnd : ℝ → ℝ) (a b v : ℝ) : ℝ := rnd (rnd (v * rnd (b - a)) + a)

/-- The box of a key: the fractions are exact, only the scaling rounds. -/
theorem computeLoHi_rounded {L n : Nat} (h : KeepsDyadics rnd L) (xmins xmaxs : Fin n → Fl rnd) (key : List Nat) (hk : key ≠ [])
    (hl : key.length ≤ L) (j : Fin n) :
    ((computeLoHi xmins xmaxs key).1 j).val = place rnd (xmins j).val (xmaxs j).val (binary n j key 0 / 2 ^ key.length) ∧
    ((computeLoHi xmins xmaxs key).2 j).val = place rnd (xmins j).val (xmaxs j).val ((binary n j key 0 + 1 : ℕ) / 2 ^ key.length) := by
  have hpos : 0 < key.length := List.length_pos_of_ne_nil hk
  have hdx : ((1 : Fl rnd) / (1 + 1)).val = 1 / 2 ^ (0 + 1) := by
    have : ((1 : Fl rnd) / (1 + 1)).val = rnd (1 / rnd (1 + 1)) := rfl
    rw [this, show (1 : ℝ) + 1 = 2 by norm_num, h.two]
    have := h.frac 1 (by omega) 1 (by norm_num)
    simpa using this
  obtain ⟨r1, r2, -⟩ := loHiFrom_exact (n := n) h key 0 (1 / (1 + 1)) (fun _ => 0) (fun _ => 1) (fun _ => 0) (by omega) (fun _ => hdx)
    (by simp) (fun j => by simp [Fl.zero_val])
  have r1 := r1 j
  have r2 := r2 hk j
  rw [Nat.zero_add] at r1 r2
  unfold computeLoHi place
  dsimp only
  rw [Fl.add_val, Fl.mul_val, Fl.sub_val, Fl.add_val, Fl.mul_val, Fl.sub_val, r1, r2]
  exact ⟨rfl, rfl⟩

/-- One digit. -/
theorem axisIndex_rounded (fact x b : Fl rnd) :
    axisIndex fact x b = if 1 ≤ rnd (rnd (x.val - b.val) * fact.val) then 1 else 0 := by
  unfold axisIndex cmin cmax
  dsimp only
  have hv : (HasFloor.floor ((x - b) * fact)).val = ((⌊rnd (rnd (x.val - b.val) * fact.val)⌋ : ℤ) : ℝ) := rfl
  generalize HasFloor.floor ((x - b) * fact) = f at hv
  generalize rnd (rnd (x.val - b.val) * fact.val) = v at hv
  have lt : ∀ a b : Fl rnd, a < b ↔ a.val < b.val := fun _ _ => Iff.rfl
  have v0 : (0 : Fl rnd).val = 0 := rfl
  have v1 : (1 : Fl rnd).val = 1 := rfl
  by_cases hc : 1 ≤ v
  · have h1 : (1 : ℤ) ≤ ⌊v⌋ := Int.le_floor.2 (by exact_mod_cast hc)
    have h2 : (1 : ℝ) ≤ f.val := by rw [hv]; exact_mod_cast h1
    rw [if_pos hc, if_pos (show (0 : Fl rnd) < f by rw [lt, v0]; linarith)]
    have : ¬ f < 1 := by rw [lt, v1]; linarith
    rw [if_neg this, if_neg (show ¬ (1 : Fl rnd) < 1 by rw [lt]; exact lt_irrefl _)]
  · have h1 : ⌊v⌋ < 1 := Int.floor_lt.2 (by push_cast; exact not_le.1 hc)
    have h2 : f.val ≤ 0 := by
      rw [hv]
      have : ⌊v⌋ ≤ 0 := by omega
      exact_mod_cast this
    rw [if_neg hc, if_neg (show ¬ (0 : Fl rnd) < f by rw [lt, v0]; linarith)]
    rw [if_pos (show (0 : Fl rnd) < 1 by rw [lt, v0, v1]; norm_num), if_pos (show (0 : Fl rnd) < 1 by rw [lt, v0, v1]; norm_num)]

/-- The digits of a normalised coordinate, up to one rounding error. -/
theorem keyFrom_rounded {L n : Nat} {u : ℝ} (h : KeepsDyadics rnd L) (hr : Rounds rnd u 0) (x : Fin n → Fl rnd) :
    ∀ (m el : Nat) (base : Fin n → Fl rnd) (acc : Fin n → Nat), el + m ≤ L → (∀ j, acc j < 2 ^ el) →
      (∀ j, (base j).val = acc j / 2 ^ el) → (∀ j, -u ≤ (x j).val - (base j).val ∧ (x j).val - (base j).val ≤ 1 / 2 ^ el) →
      ∀ j, -u ≤ (x j).val - binary n j (keyFrom x m el base) (acc j) / 2 ^ (el + m) ∧
        (x j).val - binary n j (keyFrom x m el base) (acc j) / 2 ^ (el + m) ≤ 1 / 2 ^ (el + m)
  | 0, el, base, acc, _, _, hb, hx, j => by
    have := hx j
    rw [hb j] at this
    exact this
  | m + 1, el, base, acc, hL, hacc, hb, hx, j => by
    have hpow : (0 : ℝ) < 2 ^ (el + 1) := by positivity
    have hf := h.two_pow_val (el + 1) (by omega)
    set idx : Fin n → Nat := fun j => axisIndex (two_pow (el + 1)) (x j) (base j) with hidx
    have hi : ∀ j, idx j ≤ 1 := fun j => axisIndex_le_one _ _ _
    have hacc' : ∀ j, 2 * acc j + idx j < 2 ^ (el + 1) := by
      intro j
      have := hi j
      have := hacc j
      rw [pow_succ]; omega
    have hbase : ∀ j, (base j + (idx j : Fl rnd) / two_pow (el + 1)).val = (2 * acc j + idx j : ℕ) / 2 ^ (el + 1) := by
      intro j
      rw [Fl.add_val, Fl.div_val, Fl.natCast_val, h.bit (hi j), hf, hb, h.frac _ (by omega) _ ((hi j).trans Nat.one_le_two_pow)]
      have e2 : (acc j : ℝ) / 2 ^ el + (idx j : ℕ) / 2 ^ (el + 1) = (2 * acc j + idx j : ℕ) / 2 ^ (el + 1) := by
        push_cast; rw [pow_succ]; field_simp
      rw [e2, h.frac _ (by omega) _ (hacc' j).le]
    have hfix : rnd (1 / 2 ^ (el + 1)) = 1 / 2 ^ (el + 1) := by
      simpa using h.frac (el + 1) (by omega) 1 Nat.one_le_two_pow
    have hhalf : (1 : ℝ) / 2 ^ el = 1 / 2 ^ (el + 1) + 1 / 2 ^ (el + 1) := by rw [pow_succ]; field_simp; norm_num
    have hstep : ∀ j, -u ≤ (x j).val - (base j + (idx j : Fl rnd) / two_pow (el + 1)).val ∧
        (x j).val - (base j + (idx j : Fl rnd) / two_pow (el + 1)).val ≤ 1 / 2 ^ (el + 1) := by
      intro j
      obtain ⟨h1, h2⟩ := hx j
      have hv : (base j + (idx j : Fl rnd) / two_pow (el + 1)).val = (base j).val + idx j * (1 / 2 ^ (el + 1)) := by
        rw [hbase, hb]; push_cast; rw [pow_succ]; field_simp
      rw [hv]
      have hd : idx j = if 1 ≤ rnd (rnd ((x j).val - (base j).val) * 2 ^ (el + 1)) then 1 else 0 := by
        rw [hidx]; dsimp only; rw [axisIndex_rounded, hf]
      generalize hrr : (x j).val - (base j).val = r at *
      by_cases hc : 1 ≤ rnd (rnd r * 2 ^ (el + 1))
      · rw [if_pos hc] at hd
        rw [hd]
        have hrpos : 0 < r := by
          by_contra hn
          have a1 : rnd r ≤ 0 := by rw [← h.zero]; exact h.mono (not_lt.mp hn)
          have a2 : rnd (rnd r * 2 ^ (el + 1)) ≤ 0 := by
            rw [← h.zero]; exact h.mono (mul_nonpos_of_nonpos_of_nonneg a1 hpow.le)
          linarith
        have hu := hr.rel
        have e1 : rnd r ≤ (1 + u) * r := by
          have := (abs_le.mp (hr.err r)).2
          rw [abs_of_pos hrpos] at this; linarith
        have e2 : rnd (rnd r * 2 ^ (el + 1)) ≤ (1 + u) * (rnd r * 2 ^ (el + 1)) := by
          have := (abs_le.mp (hr.err (rnd r * 2 ^ (el + 1)))).2
          rw [abs_of_nonneg (mul_nonneg (h.nonneg hrpos.le) hpow.le)] at this; linarith
        have e3 : 1 / 2 ^ (el + 1) ≤ (1 + u) * ((1 + u) * r) := by
          rw [div_le_iff₀ hpow]
          calc (1 : ℝ) ≤ (1 + u) * (rnd r * 2 ^ (el + 1)) := hc.trans e2
            _ ≤ (1 + u) * ((1 + u) * r * 2 ^ (el + 1)) := by gcongr
            _ = _ := by ring
        have hq : (1 : ℝ) / 2 ^ (el + 1) ≤ 1 / 2 := by
          rw [div_le_div_iff₀ hpow (by norm_num)]
          have : (1 : ℝ) ≤ 2 ^ el := one_le_pow₀ (by norm_num)
          rw [pow_succ]; linarith
        have hq0 : (0 : ℝ) < 1 / 2 ^ (el + 1) := by positivity
        push_cast
        constructor
        · by_contra hn
          generalize (1 : ℝ) / 2 ^ (el + 1) = w at *
          have hlt : r < w - u := by linarith
          have b1 : (1 + u) * ((1 + u) * r) < (1 + u) * ((1 + u) * (w - u)) := by gcongr
          have b2 : u * w ≤ u * (1 / 2) := by gcongr
          have b3 : u ^ 2 * w ≤ u ^ 2 * (1 / 2) := by gcongr
          have b4 : 0 ≤ u ^ 3 := by positivity
          have b5 : 0 ≤ u ^ 2 := by positivity
          have : (1 + u) * ((1 + u) * (w - u)) = w + 2 * (u * w) + u ^ 2 * w - u - 2 * u ^ 2 - u ^ 3 := by ring
          linarith
        · linarith
      · rw [if_neg hc] at hd
        rw [hd]
        have : r < 1 / 2 ^ (el + 1) := by
          by_contra hn
          apply hc
          have a1 : 1 / 2 ^ (el + 1) ≤ rnd r := by rw [← hfix]; exact h.mono (not_lt.mp hn)
          rw [← h.one]
          apply h.mono
          rwa [div_le_iff₀ hpow] at a1
        push_cast
        constructor <;> linarith
    have := keyFrom_rounded h hr x m (el + 1) (fun j => base j + (idx j : Fl rnd) / two_pow (el + 1)) (fun j => 2 * acc j + idx j) (by omega)
      hacc' hbase hstep j
    have hg : getIndices n (∑ j : Fin n, prodDims n j * idx j) j = idx j := getIndices_digit _ hi j
    have e : el + (m + 1) = el + 1 + m := by omega
    have hkey : binary n j (keyFrom x (m + 1) el base) (acc j) =
        binary n j (keyFrom x m (el + 1) (fun j => base j + (idx j : Fl rnd) / two_pow (el + 1))) (2 * acc j + idx j) := by
      simp only [keyFrom]
      unfold binary
      rw [List.foldl_cons]
      have : getIndices n (∑ j : Fin n, prodDims n j * axisIndex (two_pow (el + 1)) (x j) (base j)) j = idx j := hg
      rw [this]
    rw [e, hkey]
    exact this

end Sg.Octree
