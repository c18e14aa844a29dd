import Verif.Props.Grids
/-
Property C97: the cap of the tripolar grid.
-/
namespace Sg.Props
open Sg.Grids

/-- A new tripolar grid with `rows` latitudes and `cols` longitudes, the cap beginning at row `cap`, has latitude `lat i j`
and longitude `lon i j` at column `i` of row `j`. -/
def TripolarOut {F : Type} [Add F] [Sub F] [Mul F] [Div F] [Neg F] [NatCast F] [IntCast F] [Trig F] (rows cols cap : Nat)
    (lat lon : Nat → Nat → F) : Prop :=
  ∃ t t' : Tripolar F, Tripolar.new rows cols cap = .ok t ∧ t.getGrid = .ok (cols, rows, t') ∧
    ∀ i j, i < cols → j < rows → t'.lats[j * cols + i]? = some (lat i j) ∧ t'.lons[j * cols + i]? = some (lon i j)

/-- The grid has one result. -/
theorem tripolar_unique {F : Type} [Add F] [Sub F] [Mul F] [Div F] [Neg F] [NatCast F] [IntCast F] [Trig F]
    {rows cols cap : Nat} {lat lon lat' lon' : Nat → Nat → F} (h : TripolarOut rows cols cap lat lon)
    (h' : TripolarOut rows cols cap lat' lon') {i j : Nat} (hi : i < cols) (hj : j < rows) :
    lat i j = lat' i j ∧ lon i j = lon' i j := by
  obtain ⟨t, t', e1, e2, h⟩ := h
  obtain ⟨u, u', f1, f2, h'⟩ := h'
  rw [e1] at f1; cases f1
  rw [e2] at f2; cases f2
  obtain ⟨a, b⟩ := h i j hi hj
  obtain ⟨a', b'⟩ := h' i j hi hj
  rw [a] at a'; rw [b] at b'
  exact ⟨Option.some.inj a', Option.some.inj b'⟩

theorem tripolar_nodes {F : Type} [Add F] [Sub F] [Mul F] [Div F] [Neg F] [NatCast F] [IntCast F] [Trig F]
    (rows cols cap : Nat) (hpos : 0 < rows * cols) (hint : rows * cols ≤ 2147483647) (hcap : cap ≤ rows) :
    TripolarOut rows cols cap (fun i j => scaled (tripolarNode cols rows cap i j : F × F).2)
      (fun i j => scaled (tripolarNode cols rows cap i j : F × F).1) := by
  obtain ⟨t, t', h1, h2, -, -, h⟩ := C27_tripolar_fill (F := F) rows cols cap hpos hint hcap
  exact ⟨t, t', h1, h2, fun i j hi hj => ⟨(h i j hi hj).2, (h i j hi hj).1⟩⟩

/-! ### The formula for the latitude in the cap -/

/-- Latitude at the angular distance `x` from the middle of the cap, `P` being the distance of its boundary. -/
noncomputable def capLat (P x : ℝ) : ℝ := Real.pi / 2 - 2 * Real.arctan (Real.tan (P / 2) * Real.tan (x / 2))

theorem tan_half {x : ℝ} (h0 : 0 ≤ x) (h1 : x ≤ Real.pi / 2) : 0 ≤ Real.tan (x / 2) ∧ Real.tan (x / 2) ≤ 1 ∧
    Real.arctan (Real.tan (x / 2)) = x / 2 := by
  have hpi := Real.pi_pos
  refine ⟨Real.tan_nonneg_of_nonneg_of_le_pi_div_two (by linarith) (by linarith), ?_,
    Real.arctan_tan (by linarith) (by linarith)⟩
  rw [← Real.tan_pi_div_four]
  rcases eq_or_lt_of_le h1 with h | h
  · rw [h]; exact le_of_eq (by congr 1; ring)
  · exact (Real.tan_lt_tan_of_lt_of_lt_pi_div_two (by linarith) (by linarith) (by linarith)).le

/-- The latitude falls with the distance. -/
theorem capLat_anti {P x y : ℝ} (hP0 : 0 ≤ P) (hP1 : P < Real.pi) (h0 : 0 ≤ x) (hxy : x ≤ y) (h1 : y ≤ Real.pi / 2) :
    capLat P y ≤ capLat P x := by
  have hpi := Real.pi_pos
  have ht : 0 ≤ Real.tan (P / 2) := Real.tan_nonneg_of_nonneg_of_le_pi_div_two (by linarith) (by linarith)
  have hm : Real.tan (x / 2) ≤ Real.tan (y / 2) := by
    rcases eq_or_lt_of_le hxy with h | h
    · rw [h]
    · exact (Real.tan_lt_tan_of_lt_of_lt_pi_div_two (by linarith) (by linarith) (by linarith)).le
  have := Real.arctan_strictMono.monotone (mul_le_mul_of_nonneg_left hm ht)
  unfold capLat
  linarith

theorem capLat_strict {P x y : ℝ} (hP0 : 0 < P) (hP1 : P < Real.pi) (h0 : 0 ≤ x) (hxy : x < y) (h1 : y ≤ Real.pi / 2) :
    capLat P y < capLat P x := by
  have hpi := Real.pi_pos
  have ht : 0 < Real.tan (P / 2) := Real.tan_pos_of_pos_of_lt_pi_div_two (by linarith) (by linarith)
  have hm : Real.tan (x / 2) < Real.tan (y / 2) :=
    Real.tan_lt_tan_of_lt_of_lt_pi_div_two (by linarith) (by linarith) (by linarith)
  have := Real.arctan_strictMono (mul_lt_mul_of_pos_left hm ht)
  unfold capLat
  linarith

theorem capLat_boundary {P : ℝ} (hP0 : 0 ≤ P) (hP1 : P < Real.pi) : capLat P (Real.pi / 2) = Real.pi / 2 - P := by
  have hpi := Real.pi_pos
  unfold capLat
  rw [show Real.pi / 2 / 2 = Real.pi / 4 by ring, Real.tan_pi_div_four, mul_one,
    Real.arctan_tan (by linarith) (by linarith)]
  ring

theorem capLat_middle (P : ℝ) : capLat P 0 = Real.pi / 2 := by
  unfold capLat
  simp

/-- In a cap north of the equator latitudes differ at most by the difference of the distances. -/
theorem capLat_lipschitz {P x y : ℝ} (hP0 : 0 ≤ P) (hP1 : P ≤ Real.pi / 2) (h0 : 0 ≤ x) (hxy : x ≤ y)
    (h1 : y ≤ Real.pi / 2) : capLat P x - capLat P y ≤ y - x := by
  obtain ⟨a0, a1, ax⟩ := tan_half h0 (hxy.trans h1)
  obtain ⟨b0, b1, bx⟩ := tan_half (h0.trans hxy) h1
  obtain ⟨t0, t1, -⟩ := tan_half hP0 hP1
  have hpi := Real.pi_pos
  have hab : Real.tan (x / 2) ≤ Real.tan (y / 2) := by
    rcases eq_or_lt_of_le hxy with h | h
    · rw [h]
    · exact (Real.tan_lt_tan_of_lt_of_lt_pi_div_two (by linarith) (by linarith) (by linarith)).le
  unfold capLat
  have key : ∀ a b t : ℝ, 0 ≤ a → a ≤ b → b ≤ 1 → 0 ≤ t → t ≤ 1 →
      Real.arctan (t * b) - Real.arctan (t * a) ≤ Real.arctan b - Real.arctan a := by
    intro a b t ha hab hb ht ht1
    have hb0 : 0 ≤ b := ha.trans hab
    have e1 : Real.arctan (t * b) - Real.arctan (t * a) = Real.arctan ((t * b - t * a) / (1 + t * b * (t * a))) := by
      rw [sub_eq_add_neg, ← Real.arctan_neg, Real.arctan_add (by nlinarith [mul_nonneg (mul_nonneg ht hb0) (mul_nonneg ht ha)])]
      congr 1
      ring
    have e2 : Real.arctan b - Real.arctan a = Real.arctan ((b - a) / (1 + b * a)) := by
      rw [sub_eq_add_neg, ← Real.arctan_neg, Real.arctan_add (by nlinarith [mul_nonneg hb0 ha])]
      congr 1
      ring
    rw [e1, e2]
    apply Real.arctan_strictMono.monotone
    have hba : 0 ≤ b * a := mul_nonneg hb0 ha
    have hba1 : b * a ≤ 1 := by nlinarith
    have hd1 : 0 < 1 + b * a := by linarith
    have hd2 : 0 < 1 + t * b * (t * a) := by nlinarith [mul_nonneg (mul_nonneg ht ht) hba]
    rw [div_le_div_iff₀ hd2 hd1]
    have h3 : 0 ≤ (1 - t) * (1 - t * (b * a)) := mul_nonneg (by linarith) (by nlinarith)
    have h4 : 0 ≤ (b - a) * ((1 - t) * (1 - t * (b * a))) := mul_nonneg (by linarith) h3
    nlinarith
  have := key _ _ _ a0 hab b1 t0 t1
  rw [ax, bx] at this
  linarith

/-! ### The nodes -/

section nodes
variable {rows cols cap : Nat} (hrows : 1 ≤ cap) (hcap : cap + 1 < rows) (hcols : 2 ≤ cols)

/-- The two angles of a cap node. -/
noncomputable def pcOf (cols i : Nat) : ℝ :=
  if i < cols / 2 then -(Real.pi / 2) + i * (2 * Real.pi / ((cols : ℝ) - 1))
  else -(Real.pi / 2) + ((cols : ℝ) - i - 1) * (2 * Real.pi / ((cols : ℝ) - 1))
noncomputable def elcOf (rows cols cap i j : Nat) : ℝ :=
  if i < cols / 2 then Real.pi / 2 - ((j : ℝ) - cap) * (Real.pi / 2 / ((rows : ℝ) - cap - 1))
  else -(Real.pi / 2) + (1 - 1 / 10000000000) * ((j : ℝ) - cap) * (Real.pi / 2 / ((rows : ℝ) - cap - 1))
/-- Distance of the boundary of the cap. -/
noncomputable def perimOf (rows cap : Nat) : ℝ := Real.pi - cap * (Real.pi / ((rows : ℝ) - 1))

theorem cap_node {i j : Nat} (hj : cap ≤ j) :
    (tripolarNode cols rows cap i j : ℝ × ℝ) =
      (-Complex.arg ⟨Real.tan (pcOf cols i), Real.sin (elcOf rows cols cap i j)⟩,
       capLat (perimOf rows cap) (Real.arccos (Real.cos (elcOf rows cols cap i j) * Real.cos (pcOf cols i)))) := by
  unfold tripolarNode
  rw [if_neg (by omega)]
  have e1 : ∀ (a b : ℝ), (capCoords rows cap a b : ℝ × ℝ) =
      (-Complex.arg ⟨Real.tan a, Real.sin b⟩, capLat (perimOf rows cap) (Real.arccos (Real.cos b * Real.cos a))) := by
    intro a b
    unfold capCoords capLat perimOf
    show ((((0 : Nat) : ℝ) - Complex.arg ⟨Real.tan a, Real.sin b⟩,
      ((1 : Nat) : ℝ) / ((2 : Nat) : ℝ) * Real.pi - ((2 : Nat) : ℝ) *
        Real.arctan (Real.tan ((Real.pi - ((cap : Int) : ℝ) * (Real.pi / (((rows : Int) - 1 : Int) : ℝ))) / ((2 : Nat) : ℝ)) *
          Real.tan (((1 : Nat) : ℝ) / ((2 : Nat) : ℝ) * Real.arccos (Real.cos b * Real.cos a)))) : ℝ × ℝ) = _
    push_cast
    rw [show (1 : ℝ) / 2 * Real.arccos (Real.cos b * Real.cos a) = Real.arccos (Real.cos b * Real.cos a) / 2 by ring,
      show (1 : ℝ) / 2 * Real.pi = Real.pi / 2 by ring, zero_sub]
  split
  · rename_i h
    unfold capNodeWest
    dsimp only
    rw [e1]
    have p : (-((Trig.pi : ℝ) / ((2 : Nat) : ℝ)) + (i : ℝ) * (((2 : Nat) : ℝ) * Trig.pi / (((cols : Int) - 1 : Int) : ℝ))) =
        pcOf cols i := by
      rw [trig_pi]; unfold pcOf; rw [if_pos h]; push_cast; rfl
    have q : ((Trig.pi : ℝ) / ((2 : Nat) : ℝ) - (((j : Int) - cap : Int) : ℝ) *
        (((1 : Nat) : ℝ) / ((2 : Nat) : ℝ) * Trig.pi / (((rows : Int) - cap - 1 : Int) : ℝ))) = elcOf rows cols cap i j := by
      rw [trig_pi]; unfold elcOf; rw [if_pos h]; push_cast; ring
    rw [p, q]
  · rename_i h
    unfold capNodeEast
    dsimp only
    rw [e1]
    have p : (-((Trig.pi : ℝ) / ((2 : Nat) : ℝ)) + (((cols : Int) - i - 1 : Int) : ℝ) *
        (((2 : Nat) : ℝ) * Trig.pi / (((cols : Int) - 1 : Int) : ℝ))) = pcOf cols i := by
      rw [trig_pi]; unfold pcOf; rw [if_neg h]; push_cast; rfl
    have q : (-((Trig.pi : ℝ) / ((2 : Nat) : ℝ)) + (((1 : Nat) : ℝ) - ((1 : Nat) : ℝ) / ((10000000000 : Nat) : ℝ)) *
        (((j : Int) - cap : Int) : ℝ) *
        (((1 : Nat) : ℝ) / ((2 : Nat) : ℝ) * Trig.pi / (((rows : Int) - cap - 1 : Int) : ℝ))) = elcOf rows cols cap i j := by
      rw [trig_pi]; unfold elcOf; rw [if_neg h]; push_cast; ring
    rw [p, q]

include hcols in
theorem pc_bounds {i : Nat} (hi : i < cols) : -(Real.pi / 2) ≤ pcOf cols i ∧ pcOf cols i ≤ Real.pi / 2 := by
  have hpi := Real.pi_pos
  have hc : (0 : ℝ) < (cols : ℝ) - 1 := by
    have : ((1 : Nat) : ℝ) < (cols : ℝ) := by exact_mod_cast hcols
    rw [Nat.cast_one] at this; linarith
  have main : ∀ k : ℝ, 0 ≤ k → 2 * k ≤ (cols : ℝ) - 1 → -(Real.pi / 2) ≤ -(Real.pi / 2) + k * (2 * Real.pi / ((cols : ℝ) - 1)) ∧
      -(Real.pi / 2) + k * (2 * Real.pi / ((cols : ℝ) - 1)) ≤ Real.pi / 2 := by
    intro k h0 h1
    have a : 0 ≤ k * (2 * Real.pi / ((cols : ℝ) - 1)) := by positivity
    have b : k * (2 * Real.pi / ((cols : ℝ) - 1)) ≤ Real.pi := by
      rw [show k * (2 * Real.pi / ((cols : ℝ) - 1)) = (2 * k) * Real.pi / ((cols : ℝ) - 1) by ring, div_le_iff₀ hc]
      nlinarith
    constructor <;> linarith
  unfold pcOf
  split
  · rename_i h
    refine main _ (by positivity) ?_
    have : 2 * i + 1 ≤ cols := by omega
    have : (2 : ℝ) * i + 1 ≤ cols := by exact_mod_cast this
    linarith
  · rename_i h
    have h1 : ((i + 1 : Nat) : ℝ) ≤ cols := by exact_mod_cast hi
    push_cast at h1
    refine main _ (by linarith) ?_
    have : cols ≤ 2 * i + 1 := by omega
    have : (cols : ℝ) ≤ 2 * i + 1 := by exact_mod_cast this
    linarith

include hcap in
theorem elc_bounds (i : Nat) {j : Nat} (hj : cap ≤ j) (hj' : j < rows) :
    -(Real.pi / 2) ≤ elcOf rows cols cap i j ∧ elcOf rows cols cap i j ≤ Real.pi / 2 := by
  have hpi := Real.pi_pos
  have hr : (0 : ℝ) < (rows : ℝ) - cap - 1 := by
    have : ((cap + 1 : Nat) : ℝ) < rows := by exact_mod_cast hcap
    push_cast at this; linarith
  have h0 : (0 : ℝ) ≤ (j : ℝ) - cap := by
    have : (cap : ℝ) ≤ j := by exact_mod_cast hj
    linarith
  have h1 : (j : ℝ) - cap ≤ (rows : ℝ) - cap - 1 := by
    have : ((j + 1 : Nat) : ℝ) ≤ rows := by exact_mod_cast hj'
    push_cast at this; linarith
  have a : 0 ≤ ((j : ℝ) - cap) * (Real.pi / 2 / ((rows : ℝ) - cap - 1)) := by positivity
  have b : ((j : ℝ) - cap) * (Real.pi / 2 / ((rows : ℝ) - cap - 1)) ≤ Real.pi / 2 := by
    rw [← mul_div_assoc, div_le_iff₀ hr]
    nlinarith
  unfold elcOf
  split
  · constructor <;> linarith
  · rw [mul_assoc]
    constructor <;> nlinarith

include hrows hcap in
theorem perim_bounds : 0 < perimOf rows cap ∧ perimOf rows cap < Real.pi := by
  have hpi := Real.pi_pos
  have hr : (0 : ℝ) < (rows : ℝ) - 1 := by
    have : ((1 : Nat) : ℝ) < rows := by exact_mod_cast (by omega : 1 < rows)
    push_cast at this; linarith
  have h1 : (cap : ℝ) < (rows : ℝ) - 1 := by
    have : ((cap + 1 : Nat) : ℝ) < rows := by exact_mod_cast hcap
    push_cast at this; linarith
  have h0 : (0 : ℝ) < cap := by exact_mod_cast hrows
  have a : 0 < (cap : ℝ) * (Real.pi / ((rows : ℝ) - 1)) := by positivity
  have b : (cap : ℝ) * (Real.pi / ((rows : ℝ) - 1)) < Real.pi := by
    rw [← mul_div_assoc, div_lt_iff₀ hr]
    nlinarith
  unfold perimOf
  constructor <;> linarith

/-- Distance of a cap node from the middle of the cap. -/
noncomputable def distOf (rows cols cap i j : Nat) : ℝ :=
  Real.arccos (Real.cos (elcOf rows cols cap i j) * Real.cos (pcOf cols i))

include hcap hcols in
theorem dist_bounds {i j : Nat} (hi : i < cols) (hj : cap ≤ j) (hj' : j < rows) :
    0 ≤ distOf rows cols cap i j ∧ distOf rows cols cap i j ≤ Real.pi / 2 := by
  refine ⟨Real.arccos_nonneg _, Real.arccos_le_pi_div_two.mpr (mul_nonneg ?_ ?_)⟩
  · exact Real.cos_nonneg_of_neg_pi_div_two_le_of_le (elc_bounds hcap i hj hj').1 (elc_bounds hcap i hj hj').2
  · exact Real.cos_nonneg_of_neg_pi_div_two_le_of_le (pc_bounds hcols hi).1 (pc_bounds hcols hi).2

/-- Degrees. -/
noncomputable def deg (x : ℝ) : ℝ := x * (180 / Real.pi)

theorem scaled_deg (x : ℝ) : scaled x = deg x := by
  unfold scaled deg
  rw [trig_pi]; norm_num

theorem deg_mono {x y : ℝ} (h : x ≤ y) : deg x ≤ deg y := mul_le_mul_of_nonneg_right h (by positivity)

theorem deg_half : deg (Real.pi / 2) = 90 := by
  unfold deg
  have := Real.pi_pos
  field_simp
  norm_num

include hrows in
theorem deg_boundary (hr : 1 < rows) : deg (Real.pi / 2 - perimOf rows cap) = -90 + 180 * (cap : ℝ) / ((rows : ℝ) - 1) := by
  unfold deg perimOf
  have := Real.pi_pos
  have hr : (0 : ℝ) < (rows : ℝ) - 1 := by
    have : ((1 : Nat) : ℝ) < rows := by exact_mod_cast hr
    push_cast at this; linarith
  field_simp
  ring

theorem elc_first (i : Nat) : elcOf rows cols cap i cap = if i < cols / 2 then Real.pi / 2 else -(Real.pi / 2) := by
  unfold elcOf
  split <;> simp

include hcap in
theorem elc_sign (i : Nat) {j : Nat} (hj : cap ≤ j) (hj' : j < rows) :
    if i < cols / 2 then 0 ≤ elcOf rows cols cap i j else elcOf rows cols cap i j ≤ 0 := by
  have hpi := Real.pi_pos
  have hr : (0 : ℝ) < (rows : ℝ) - cap - 1 := by
    have : ((cap + 1 : Nat) : ℝ) < rows := by exact_mod_cast hcap
    push_cast at this; linarith
  have h0 : (0 : ℝ) ≤ (j : ℝ) - cap := by
    have : (cap : ℝ) ≤ j := by exact_mod_cast hj
    linarith
  have h1 : (j : ℝ) - cap ≤ (rows : ℝ) - cap - 1 := by
    have : ((j + 1 : Nat) : ℝ) ≤ rows := by exact_mod_cast hj'
    push_cast at this; linarith
  have a : 0 ≤ ((j : ℝ) - cap) * (Real.pi / 2 / ((rows : ℝ) - cap - 1)) := by positivity
  have b : ((j : ℝ) - cap) * (Real.pi / 2 / ((rows : ℝ) - cap - 1)) ≤ Real.pi / 2 := by
    rw [← mul_div_assoc, div_le_iff₀ hr]
    nlinarith
  unfold elcOf
  split
  · linarith
  · rw [mul_assoc]
    nlinarith

include hcap hcols in
/-- Rows of the cap approach its middle. -/
theorem dist_falls {i j : Nat} (hi : i < cols) (hj : cap ≤ j) (hj' : j + 1 < rows) :
    distOf rows cols cap i (j + 1) ≤ distOf rows cols cap i j := by
  have hpi := Real.pi_pos
  have hr : (0 : ℝ) < (rows : ℝ) - cap - 1 := by
    have : ((cap + 1 : Nat) : ℝ) < rows := by exact_mod_cast hcap
    push_cast at this; linarith
  have hstep : (0 : ℝ) < Real.pi / 2 / ((rows : ℝ) - cap - 1) := by positivity
  have hp := Real.cos_nonneg_of_neg_pi_div_two_le_of_le (pc_bounds hcols hi).1 (pc_bounds hcols hi).2
  refine Real.arccos_le_arccos (mul_le_mul_of_nonneg_right ?_ hp)
  have s1 := elc_sign (cols := cols) hcap i hj (by omega)
  have s2 := elc_sign (cols := cols) hcap i (j := j + 1) (by omega) hj'
  have b1 := elc_bounds (cols := cols) hcap i hj (by omega)
  have b2 := elc_bounds (cols := cols) hcap i (j := j + 1) (by omega) hj'
  by_cases h : i < cols / 2
  · rw [if_pos h] at s1 s2
    refine Real.cos_le_cos_of_nonneg_of_le_pi s2 (by linarith [b1.2]) ?_
    unfold elcOf
    rw [if_pos h, if_pos h]
    push_cast
    nlinarith
  · rw [if_neg h] at s1 s2
    rw [← Real.cos_neg, ← Real.cos_neg (elcOf rows cols cap i (j + 1))]
    refine Real.cos_le_cos_of_nonneg_of_le_pi (by linarith) (by linarith [b1.1]) ?_
    unfold elcOf
    rw [if_neg h, if_neg h]
    push_cast
    nlinarith

theorem arg_cap (θ : ℝ) (h0 : 0 < θ) (h1 : θ < Real.pi) :
    Complex.arg ⟨Real.tan (-(Real.pi / 2) + θ), 1⟩ = Real.pi - θ ∧
    Complex.arg ⟨Real.tan (-(Real.pi / 2) + θ), -1⟩ = θ - Real.pi := by
  have hs : 0 < Real.sin θ := Real.sin_pos_of_pos_of_lt_pi h0 h1
  have ht : Real.tan (-(Real.pi / 2) + θ) = (Real.sin θ)⁻¹ * -Real.cos θ := by
    rw [show -(Real.pi / 2) + θ = θ - Real.pi / 2 by ring, Real.tan_eq_sin_div_cos, Real.sin_sub_pi_div_two,
      Real.cos_sub_pi_div_two]
    field_simp
  constructor
  · rw [← arg_polar (Real.sin θ)⁻¹ (Real.pi - θ) (by positivity) (by linarith) (by linarith), Real.cos_pi_sub, Real.sin_pi_sub, ht,
      inv_mul_cancel₀ hs.ne']
  · rw [← arg_polar (Real.sin θ)⁻¹ (θ - Real.pi) (by positivity) (by linarith) (by linarith), Real.cos_sub_pi, Real.sin_sub_pi, ht,
      mul_neg _ (Real.sin θ), inv_mul_cancel₀ hs.ne']

end nodes

section claims
variable (rows cols cap : Nat) (hrows : 1 ≤ cap) (hcap : cap + 1 < rows) (hcols : 2 ≤ cols)
  (hint : rows * cols ≤ 2147483647) (lat lon : Nat → Nat → ℝ) (h : TripolarOut rows cols cap lat lon)
include hrows hcap hcols hint h

theorem out_cap {i j : Nat} (hi : i < cols) (hj : cap ≤ j) (hj' : j < rows) :
    lat i j = deg (capLat (perimOf rows cap) (distOf rows cols cap i j)) ∧
    lon i j = deg (-Complex.arg ⟨Real.tan (pcOf cols i), Real.sin (elcOf rows cols cap i j)⟩) := by
  obtain ⟨a, b⟩ := tripolar_unique h (tripolar_nodes rows cols cap (Nat.mul_pos (by omega) (by omega)) hint (by omega)) hi hj'
  rw [a, b]
  rw [cap_node hj, scaled_deg, scaled_deg]
  exact ⟨rfl, rfl⟩

/-- **C97** The first row of the cap continues the grid below: it has the latitude of row `cap` of the regular grid and the
same longitudes (shown where the code takes no tangent of 90 degrees, that is not in the first, last and middle column). -/
theorem C97_joins : (∀ i < cols, lat i cap = -90 + 180 * (cap : ℝ) / ((rows : ℝ) - 1)) ∧
    ∀ i, 0 < i → i + 1 < cols → 2 * i + 1 ≠ cols → lon i cap = -180 + 360 * (i : ℝ) / ((cols : ℝ) - 1) := by
  have hpi := Real.pi_pos
  have hP := perim_bounds hrows hcap
  refine ⟨fun i hi => ?_, fun i h0 h1 h2 => ?_⟩
  · rw [(out_cap rows cols cap hrows hcap hcols hint lat lon h hi (Nat.le_refl _) (by omega)).1]
    have : distOf rows cols cap i cap = Real.pi / 2 := by
      unfold distOf
      rw [elc_first]
      split
      · rw [Real.cos_pi_div_two, zero_mul, Real.arccos_zero]
      · rw [Real.cos_neg, Real.cos_pi_div_two, zero_mul, Real.arccos_zero]
    rw [this, capLat_boundary hP.1.le hP.2, deg_boundary hrows (by omega)]
  · rw [(out_cap rows cols cap hrows hcap hcols hint lat lon h (i := i) (by omega) (Nat.le_refl _) (by omega)).2, elc_first]
    have hc : (0 : ℝ) < (cols : ℝ) - 1 := by
      have : ((1 : Nat) : ℝ) < (cols : ℝ) := by exact_mod_cast hcols
      rw [Nat.cast_one] at this; linarith
    unfold pcOf
    split
    · rename_i hw
      have hi0 : (0 : ℝ) < i := by exact_mod_cast h0
      have hi1 : 2 * (i : ℝ) < (cols : ℝ) - 1 := by
        have : ((2 * i + 1 : Nat) : ℝ) < cols := by exact_mod_cast (by omega : 2 * i + 1 < cols)
        push_cast at this; linarith
      have hθ : (i : ℝ) * (2 * Real.pi / ((cols : ℝ) - 1)) < Real.pi := by
        rw [show (i : ℝ) * (2 * Real.pi / ((cols : ℝ) - 1)) = (2 * i) * Real.pi / ((cols : ℝ) - 1) by ring, div_lt_iff₀ hc]
        nlinarith
      rw [Real.sin_pi_div_two, (arg_cap _ (by positivity) hθ).1]
      unfold deg
      field_simp
      ring
    · rename_i hw
      have hi0 : (0 : ℝ) < (cols : ℝ) - i - 1 := by
        have : ((i + 1 : Nat) : ℝ) < cols := by exact_mod_cast h1
        push_cast at this; linarith
      have hi1 : 2 * ((cols : ℝ) - i - 1) < (cols : ℝ) - 1 := by
        have : (cols : ℝ) < ((2 * i + 1 : Nat) : ℝ) := by exact_mod_cast (by omega : cols < 2 * i + 1)
        push_cast at this; linarith
      have hθ : ((cols : ℝ) - i - 1) * (2 * Real.pi / ((cols : ℝ) - 1)) < Real.pi := by
        rw [show ((cols : ℝ) - i - 1) * (2 * Real.pi / ((cols : ℝ) - 1)) = (2 * ((cols : ℝ) - i - 1)) * Real.pi / ((cols : ℝ) - 1)
          by ring, div_lt_iff₀ hc]
        nlinarith
      rw [Real.sin_neg, Real.sin_pi_div_two, (arg_cap _ (by positivity) hθ).2]
      unfold deg
      field_simp
      ring

/-- **C97** Latitudes in the cap are between that of its boundary and 90 degrees. -/
theorem C97_range (i j : Nat) (hi : i < cols) (hj : cap ≤ j) (hj' : j < rows) :
    -90 + 180 * (cap : ℝ) / ((rows : ℝ) - 1) ≤ lat i j ∧ lat i j ≤ 90 := by
  have hP := perim_bounds hrows hcap
  have hd := dist_bounds hcap hcols hi hj hj'
  rw [(out_cap rows cols cap hrows hcap hcols hint lat lon h hi hj hj').1]
  constructor
  · rw [← deg_boundary hrows (by omega), ← capLat_boundary hP.1.le hP.2]
    exact deg_mono (capLat_anti hP.1.le hP.2 hd.1 hd.2 (le_refl _))
  · rw [← deg_half, ← capLat_middle (perimOf rows cap)]
    exact deg_mono (capLat_anti hP.1.le hP.2 (le_refl _) hd.1 hd.2)

/-- **C97** In every column the latitude never falls from one row to the next, from the south pole to the last row. -/
theorem C97_rises (i j : Nat) (hi : i < cols) (hj : j + 1 < rows) : lat i j ≤ lat i (j + 1) := by
  have hr : (0 : ℝ) < (rows : ℝ) - 1 := by
    have : ((1 : Nat) : ℝ) < rows := by exact_mod_cast (by omega : 1 < rows)
    push_cast at this; linarith
  have hlow : ∀ k, k < cap → lat i k = -90 + 180 * (k : ℝ) / ((rows : ℝ) - 1) := by
    intro k hk
    rw [(tripolar_unique h (tripolar_nodes rows cols cap (Nat.mul_pos (by omega) (by omega)) hint (by omega)) hi
      (show k < rows by omega)).1]
    exact C27_linear_below_cap cols rows cap i k (by omega) hk
  have hle : -90 + 180 * (j : ℝ) / ((rows : ℝ) - 1) ≤ -90 + 180 * ((j + 1 : Nat) : ℝ) / ((rows : ℝ) - 1) := by
    have : 180 * (j : ℝ) / ((rows : ℝ) - 1) ≤ 180 * ((j + 1 : Nat) : ℝ) / ((rows : ℝ) - 1) := by
      apply div_le_div_of_nonneg_right _ hr.le
      push_cast; linarith
    linarith
  rcases Nat.lt_trichotomy (j + 1) cap with hc | hc | hc
  · rw [hlow j (by omega), hlow (j + 1) hc]
    exact hle
  · rw [hlow j (by omega), hc, (C97_joins rows cols cap hrows hcap hcols hint lat lon h).1 i hi, ← hc]
    exact hle
  · rw [(out_cap rows cols cap hrows hcap hcols hint lat lon h hi (show cap ≤ j by omega) (by omega)).1,
      (out_cap rows cols cap hrows hcap hcols hint lat lon h hi (show cap ≤ j + 1 by omega) hj).1]
    have hP := perim_bounds hrows hcap
    exact deg_mono (capLat_anti hP.1.le hP.2 (dist_bounds hcap hcols hi (by omega) hj).1
      (dist_falls hcap hcols hi (by omega) hj) (dist_bounds hcap hcols hi (by omega) (by omega)).2)

/-- **C97** The poles of the cap: the first and the last column, and the middle one of an odd number, stay at its
boundary. -/
theorem C97_poles (i j : Nat) (hi : i = 0 ∨ i + 1 = cols ∨ 2 * i + 1 = cols) (hj : cap ≤ j) (hj' : j < rows) :
    lat i j = -90 + 180 * (cap : ℝ) / ((rows : ℝ) - 1) := by
  have hP := perim_bounds hrows hcap
  have hc : (0 : ℝ) < (cols : ℝ) - 1 := by
    have : ((1 : Nat) : ℝ) < (cols : ℝ) := by exact_mod_cast hcols
    rw [Nat.cast_one] at this; linarith
  have hi' : i < cols := by omega
  rw [(out_cap rows cols cap hrows hcap hcols hint lat lon h hi' hj hj').1]
  have hp : Real.cos (pcOf cols i) = 0 := by
    unfold pcOf
    rcases hi with rfl | hi | hi
    · rw [if_pos (by omega)]
      simp
    · rw [if_neg (by omega), ← hi]
      push_cast
      rw [show ((i : ℝ) + 1 - i - 1) = 0 by ring, zero_mul, add_zero, Real.cos_neg, Real.cos_pi_div_two]
    · rw [if_neg (by omega), ← hi]
      have hi0 : (i : ℝ) ≠ 0 := by
        have : i ≠ 0 := by omega
        exact_mod_cast this
      push_cast
      rw [show -(Real.pi / 2) + (2 * (i : ℝ) + 1 - i - 1) * (2 * Real.pi / (2 * (i : ℝ) + 1 - 1)) = Real.pi / 2 by
        field_simp; ring, Real.cos_pi_div_two]
  have : distOf rows cols cap i j = Real.pi / 2 := by
    unfold distOf
    rw [hp, mul_zero, Real.arccos_zero]
  rw [this, capLat_boundary hP.1.le hP.2, deg_boundary hrows (by omega)]

omit hrows hcols hint h in
/-- Distances in the last row. -/
theorem fold_dist {i : Nat} (hi : i < cols / 2) :
    distOf rows cols cap i (rows - 1) = Real.arccos (Real.cos (pcOf cols i)) ∧
    distOf rows cols cap (cols - 1 - i) (rows - 1) =
      Real.arccos (Real.cos (Real.pi / 20000000000) * Real.cos (pcOf cols i)) := by
  have hr : (0 : ℝ) < (rows : ℝ) - cap - 1 := by
    have : ((cap + 1 : Nat) : ℝ) < rows := by exact_mod_cast hcap
    push_cast at this; linarith
  have e1 : ((rows - 1 : Nat) : ℝ) - cap = (rows : ℝ) - cap - 1 := by
    rw [Nat.cast_sub (by omega)]; push_cast; ring
  have hpc : pcOf cols (cols - 1 - i) = pcOf cols i := by
    unfold pcOf
    rw [if_neg (by omega), if_pos hi, show cols - 1 - i = cols - (1 + i) by omega, Nat.cast_sub (by omega)]
    push_cast
    ring
  constructor
  · unfold distOf elcOf
    rw [if_pos hi, e1, show Real.pi / 2 - ((rows : ℝ) - cap - 1) * (Real.pi / 2 / ((rows : ℝ) - cap - 1)) = 0 by
      field_simp; ring, Real.cos_zero, one_mul]
  · unfold distOf elcOf
    rw [if_neg (by omega), e1, hpc, show -(Real.pi / 2) + (1 - 1 / 10000000000) * ((rows : ℝ) - cap - 1) *
      (Real.pi / 2 / ((rows : ℝ) - cap - 1)) = -(Real.pi / 20000000000) by field_simp; ring, Real.cos_neg]

/-- **C97** In the last row the two halves meet: mirrored nodes have the same latitude up to 1e-8 degrees, for a cap in the
northern hemisphere.  Missing: they are not equal, see `C97_fold_refuted`. -/
theorem C97_fold_partial (hnorth : rows ≤ 2 * cap + 1) (i : Nat) (hi : i < cols / 2) :
    |lat i (rows - 1) - lat (cols - 1 - i) (rows - 1)| ≤ 1 / 100000000 := by
  have hpi := Real.pi_pos
  have hP := perim_bounds hrows hcap
  have hr : (0 : ℝ) < (rows : ℝ) - 1 := by
    have : ((1 : Nat) : ℝ) < rows := by exact_mod_cast (by omega : 1 < rows)
    push_cast at this; linarith
  have hP2 : perimOf rows cap ≤ Real.pi / 2 := by
    unfold perimOf
    have h2 : (rows : ℝ) ≤ 2 * cap + 1 := by exact_mod_cast hnorth
    have : Real.pi / 2 ≤ (cap : ℝ) * (Real.pi / ((rows : ℝ) - 1)) := by
      rw [← mul_div_assoc, le_div_iff₀ hr]
      nlinarith
    linarith
  obtain ⟨e1, e2⟩ := fold_dist rows cols cap hcap hi
  have hpb := pc_bounds hcols (show i < cols by omega)
  have hcp := Real.cos_nonneg_of_neg_pi_div_two_le_of_le hpb.1 hpb.2
  rw [(out_cap rows cols cap hrows hcap hcols hint lat lon h (i := i) (j := rows - 1) (by omega) (by omega) (by omega)).1,
    (out_cap rows cols cap hrows hcap hcols hint lat lon h (i := cols - 1 - i) (j := rows - 1) (by omega) (by omega)
      (by omega)).1, e1, e2]
  set ε := Real.pi / 20000000000 with hε
  have hε0 : 0 < ε := by positivity
  have h1 : Real.arccos (Real.cos (pcOf cols i)) = |pcOf cols i| := by
    rw [← Real.cos_abs, Real.arccos_cos (abs_nonneg _) (by rw [abs_le]; constructor <;> linarith)]
  have habs : |pcOf cols i| ≤ Real.pi / 2 := abs_le.mpr hpb
  -- the distance changes by at most ε
  have h2 : |pcOf cols i| ≤ Real.arccos (Real.cos ε * Real.cos (pcOf cols i)) := by
    rw [← h1]
    apply Real.arccos_le_arccos
    nlinarith [Real.cos_le_one ε]
  have h3 : Real.arccos (Real.cos ε * Real.cos (pcOf cols i)) ≤ |pcOf cols i| + ε := by
    rw [← Real.arccos_cos (x := |pcOf cols i| + ε) (by positivity) (by rw [hε]; linarith)]
    apply Real.arccos_le_arccos
    rw [Real.cos_add, Real.cos_abs]
    have s1 : 0 ≤ Real.sin |pcOf cols i| := Real.sin_nonneg_of_nonneg_of_le_pi (abs_nonneg _) (by linarith)
    have s2 : 0 ≤ Real.sin ε := Real.sin_nonneg_of_nonneg_of_le_pi hε0.le (by rw [hε]; linarith)
    nlinarith [mul_nonneg s1 s2]
  have h4 : Real.arccos (Real.cos ε * Real.cos (pcOf cols i)) ≤ Real.pi / 2 := by
    refine Real.arccos_le_pi_div_two.mpr (mul_nonneg (Real.cos_nonneg_of_neg_pi_div_two_le_of_le ?_ ?_) hcp)
    · linarith
    · rw [hε]; linarith
  rw [h1]
  have l1 := capLat_lipschitz hP.1.le hP2 (abs_nonneg _) h2 h4
  have l2 := capLat_anti hP.1.le hP.2 (abs_nonneg _) h2 h4
  unfold deg
  rw [← sub_mul, abs_mul, abs_of_nonneg (sub_nonneg.mpr l2), abs_of_pos (show 0 < 180 / Real.pi by positivity)]
  calc _ ≤ ε * (180 / Real.pi) := mul_le_mul_of_nonneg_right (by linarith) (by positivity)
    _ ≤ 1 / 100000000 := by
      rw [hε]
      field_simp
      norm_num

/-- **C97** The halves do not meet exactly: away from the poles the eastern node is south of its mirror image. -/
theorem C97_fold_refuted (i : Nat) (h0 : 0 < i) (hi : i < cols / 2) : lat (cols - 1 - i) (rows - 1) < lat i (rows - 1) := by
  have hpi := Real.pi_pos
  have hP := perim_bounds hrows hcap
  obtain ⟨e1, e2⟩ := fold_dist rows cols cap hcap hi
  have hpb := pc_bounds hcols (show i < cols by omega)
  have hc : (0 : ℝ) < (cols : ℝ) - 1 := by
    have : ((1 : Nat) : ℝ) < (cols : ℝ) := by exact_mod_cast hcols
    rw [Nat.cast_one] at this; linarith
  have hcp : 0 < Real.cos (pcOf cols i) := by
    apply Real.cos_pos_of_mem_Ioo
    have hi0 : (0 : ℝ) < i := by exact_mod_cast h0
    have hi1 : 2 * (i : ℝ) < (cols : ℝ) - 1 := by
      have : 2 * i + 2 ≤ cols := by omega
      have : ((2 * i + 1 : Nat) : ℝ) < cols := by exact_mod_cast (by omega : 2 * i + 1 < cols)
      push_cast at this; linarith
    have a : 0 < (i : ℝ) * (2 * Real.pi / ((cols : ℝ) - 1)) := by positivity
    have b : (i : ℝ) * (2 * Real.pi / ((cols : ℝ) - 1)) < Real.pi := by
      rw [show (i : ℝ) * (2 * Real.pi / ((cols : ℝ) - 1)) = (2 * i) * Real.pi / ((cols : ℝ) - 1) by ring, div_lt_iff₀ hc]
      nlinarith
    unfold pcOf
    rw [if_pos hi]
    constructor <;> linarith
  rw [(out_cap rows cols cap hrows hcap hcols hint lat lon h (i := i) (j := rows - 1) (by omega) (by omega) (by omega)).1,
    (out_cap rows cols cap hrows hcap hcols hint lat lon h (i := cols - 1 - i) (j := rows - 1) (by omega) (by omega)
      (by omega)).1, e1, e2]
  have hε : Real.cos (Real.pi / 20000000000) < 1 := by
    rw [← Real.cos_zero]
    exact Real.cos_lt_cos_of_nonneg_of_le_pi (le_refl _) (by linarith) (by positivity)
  have hε' : 0 ≤ Real.cos (Real.pi / 20000000000) :=
    Real.cos_nonneg_of_neg_pi_div_two_le_of_le (by linarith) (by linarith)
  have hlt : Real.cos (Real.pi / 20000000000) * Real.cos (pcOf cols i) < Real.cos (pcOf cols i) := by nlinarith
  have hacc := Real.arccos_lt_arccos (x := Real.cos (Real.pi / 20000000000) * Real.cos (pcOf cols i))
    (y := Real.cos (pcOf cols i)) (by nlinarith) hlt (Real.cos_le_one _)
  have hst := capLat_strict hP.1 hP.2 (Real.arccos_nonneg _) hacc (Real.arccos_le_pi_div_two.mpr (mul_nonneg hε' hcp.le))
  unfold deg
  exact mul_lt_mul_of_pos_right hst (by positivity)

end claims

/-! ### A cap of one row -/

/-- Real arithmetic with an undefined value for what doubles give infinite or no value: quotients by zero; whatever is computed
from it is undefined. -/
inductive Und
  | undef | num (x : ℝ)

namespace Und
/-- Operations on defined numbers. -/
def lift2 (f : ℝ → ℝ → ℝ) : Und → Und → Und
  | num x, num y => num (f x y)
  | _, _ => undef
def lift1 (f : ℝ → ℝ) : Und → Und
  | num x => num (f x)
  | undef => undef
open Classical in
/-- Quotient. -/
noncomputable def quot : Und → Und → Und
  | num x, num y => if y = 0 then undef else num (x / y)
  | _, _ => undef
noncomputable instance : Add Und := ⟨lift2 (· + ·)⟩
noncomputable instance : Sub Und := ⟨lift2 (· - ·)⟩
noncomputable instance : Mul Und := ⟨lift2 (· * ·)⟩
noncomputable instance : Div Und := ⟨quot⟩
noncomputable instance : Neg Und := ⟨lift1 (- ·)⟩
instance : NatCast Und := ⟨fun n => num (n : ℝ)⟩
instance : IntCast Und := ⟨fun n => num (n : ℝ)⟩
noncomputable instance : Trig Und where
  pi := num Real.pi
  sin := lift1 Real.sin
  cos := lift1 Real.cos
  tan := lift1 Real.tan
  asin := lift1 Real.arcsin
  acos := lift1 Real.arccos
  atan := lift1 Real.arctan
  atan2 := lift2 fun y x => Complex.arg ⟨x, y⟩

theorem undef_mul (a : Und) : undef * a = undef := rfl
theorem add_undef (a : Und) : a + undef = undef := by cases a <;> rfl
theorem sub_undef (a : Und) : a - undef = undef := by cases a <;> rfl
theorem mul_undef (a : Und) : a * undef = undef := by cases a <;> rfl
theorem div_zero (a : Und) : a / num 0 = undef := by
  cases a with
  | undef => rfl
  | num x => show (if (0 : ℝ) = 0 then undef else num (x / 0)) = undef; rw [if_pos rfl]
end Und

/-- **C97** A cap of a single row is undefined: its distance to the last row, zero, is divided by, so that for `cap` equal
to the number of rows minus one no node of the last row has a latitude or longitude. -/
theorem C97_one_row_refuted (rows cols : Nat) (hr : 1 ≤ rows) (hc : 1 ≤ cols) (hint : rows * cols ≤ 2147483647) :
    ∃ lat lon : Nat → Nat → Und, TripolarOut rows cols (rows - 1) lat lon ∧
      ∀ i < cols, lat i (rows - 1) = .undef ∧ lon i (rows - 1) = .undef := by
  refine ⟨_, _, tripolar_nodes rows cols (rows - 1) (Nat.mul_pos hr hc) hint (by omega), fun i hi => ?_⟩
  have hz : ((((rows : Int) - ((rows - 1 : Nat) : Int) - 1 : Int)) : Und) = .num 0 := by
    rw [show ((rows : Int) - ((rows - 1 : Nat) : Int) - 1 : Int) = 0 by omega]
    show Und.num (((0 : Int) : ℝ)) = Und.num 0
    rw [Int.cast_zero]
  have hcc : ∀ (a : Und), (capCoords rows ((rows - 1 : Nat) : Int) a .undef : Und × Und) = (.undef, .undef) := by
    intro a
    unfold capCoords
    have e1 : (Trig.atan2 (Trig.sin Und.undef) (Trig.tan a) : Und) = .undef := rfl
    have e2 : (Trig.acos (Trig.cos Und.undef * Trig.cos a) : Und) = .undef := rfl
    have e3 : (Trig.tan Und.undef : Und) = .undef := rfl
    have e4 : (Trig.atan Und.undef : Und) = .undef := rfl
    simp only [e1, e2, e3, e4, Und.mul_undef, Und.sub_undef]
  have hnode : (tripolarNode cols rows (rows - 1) i (rows - 1) : Und × Und) = (.undef, .undef) := by
    unfold tripolarNode
    rw [if_neg (by omega)]
    split
    · unfold capNodeWest
      simp only [hz, Und.div_zero, Und.mul_undef, Und.sub_undef]
      exact hcc _
    · unfold capNodeEast
      simp only [hz, Und.div_zero, Und.mul_undef, Und.add_undef]
      exact hcc _
  rw [hnode]
  exact ⟨rfl, rfl⟩

/-- Cases that meet the hypotheses: the grid of the test, 11 latitudes, 21 longitudes, cap from row 7. -/
example : ∃ lat lon : Nat → Nat → ℝ, TripolarOut 11 21 7 lat lon ∧ lat 3 7 = 36 ∧ lon 3 7 = -126 ∧ lat 10 9 = 36 := by
  have h := tripolar_nodes (F := ℝ) 11 21 7 (by decide) (by decide) (by decide)
  refine ⟨_, _, h, ?_, ?_, ?_⟩
  · rw [(C97_joins 11 21 7 (by decide) (by decide) (by decide) (by decide) _ _ h).1 3 (by decide)]; norm_num
  · rw [(C97_joins 11 21 7 (by decide) (by decide) (by decide) (by decide) _ _ h).2 3 (by decide) (by decide) (by decide)]; norm_num
  · rw [C97_poles 11 21 7 (by decide) (by decide) (by decide) (by decide) _ _ h 10 9 (by decide) (by decide) (by decide)]; norm_num

end Sg.Props
