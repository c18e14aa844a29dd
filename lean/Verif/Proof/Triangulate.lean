import Verif.Proof.Hull
import Verif.Proof.Cxx
import Verif.Spec.Hull
/-
The triangulation computes the area of the hull: index bookkeeping on top of `Verif.Proof.Hull`.
-/
namespace Sg.Triangulate
open MeasureTheory Sg.Plane Sg.Spec

/-! ### Sets as sorted lists -/

theorem setInsert_perm {α : Type} {lt : α → α → Bool} (tri : ∀ a b, lt a b = false → lt b a = false → a = b)
    (l : List α) (a : α) (h : a ∉ l) : (setInsert lt l a).Perm (a :: l) := by
  induction l with
  | nil => simp [setInsert]
  | cons b l ih =>
    simp only [List.mem_cons, not_or] at h
    simp only [setInsert]
    split
    · exact List.Perm.refl _
    · split
      · exact ((ih h.2).cons b).trans (List.Perm.swap a b l)
      · rename_i h1 h2
        exact absurd (tri a b (by simpa using h1) (by simpa using h2)) h.1

theorem lt2_tri (a b : Nat × Nat) (h1 : lt2 a b = false) (h2 : lt2 b a = false) : a = b := by
  simp only [lt2, Bool.or_eq_false_iff, decide_eq_false_iff_not, Bool.and_eq_false_iff] at h1 h2
  ext <;> omega

theorem lt3_tri (a b : Nat × Nat × Nat) (h1 : lt3 a b = false) (h2 : lt3 b a = false) : a = b := by
  simp only [lt3, Bool.or_eq_false_iff, decide_eq_false_iff_not, Bool.and_eq_false_iff] at h1 h2
  have e1 : a.1 = b.1 := by omega
  have e2 : a.2 = b.2 := by
    apply lt2_tri
    · rcases h1.2 with h | h
      · omega
      · exact h
    · rcases h2.2 with h | h
      · omega
      · exact h
  exact Prod.ext e1 e2

/-! ### Reads -/

/-- Point `i` of the buffer. -/
noncomputable def Mem.pt (m : Mem ℝ) (i : Nat) : P2 := m.buf.getD i 0

/-- The first `k` points of the buffer. -/
def Mem.first (m : Mem ℝ) (k : Nat) : Set P2 := {p | ∃ i, i < k ∧ m.pt i = p}

theorem Mem.read_ok {m : Mem ℝ} (hm : m.readable ≤ m.buf.length) {i : Nat} (h : i < m.readable) :
    m.read i = .ok (m.pt i) := by
  simp only [Mem.read, if_pos h, vget, Mem.pt]
  rw [List.getD, List.getElem?_eq_getElem (by omega)]
  rfl

theorem Mem.read_err {m : Mem ℝ} {i : Nat} (h : ¬ i < m.readable) : m.read i = .error .outOfBounds := by
  simp only [Mem.read, if_neg h]

theorem Mem.area_ok {m : Mem ℝ} (hm : m.readable ≤ m.buf.length) {i j k : Nat} (hi : i < m.readable)
    (hj : j < m.readable) (hk : k < m.readable) : m.area i j k = .ok (cross (m.pt i) (m.pt j) (m.pt k)) := by
  simp only [Mem.area, Mem.read_ok hm hi, Mem.read_ok hm hj, Mem.read_ok hm hk, bind, Except.bind, pure, Except.pure]

theorem Mem.first_succ (m : Mem ℝ) (k : Nat) : m.first (k + 1) = insert (m.pt k) (m.first k) := by
  ext p
  simp only [Mem.first, Set.mem_insert_iff]
  constructor
  · rintro ⟨i, hi, rfl⟩
    by_cases h : i = k
    · left; rw [h]
    · right; exact ⟨i, by omega, rfl⟩
  · rintro (rfl | ⟨i, hi, rfl⟩)
    · exact ⟨k, by omega, rfl⟩
    · exact ⟨i, by omega, rfl⟩

theorem eps_real : (eps : ℝ) = 1 / 1000000000000 := by simp [eps]

theorem cross_area2 (p q r : P2) : cross p q r = area2 p q r := rfl

/-! ### Adding a point -/

/-- Sum of the (double) areas of the triangles. -/
noncomputable def Mem.triSum (m : Mem ℝ) (l : List (Nat × Nat × Nat)) : ℝ :=
  (l.map fun t => cross (m.pt t.1) (m.pt t.2.1) (m.pt t.2.2)).sum

/-- An edge as a pair of points. -/
noncomputable def Mem.edge (m : Mem ℝ) (e : Nat × Nat) : P2 × P2 := (m.pt e.1, m.pt e.2)

/-- The mesh triangulates the hull of the first `k` points. -/
structure MeshInv (m : Mem ℝ) (k : Nat) (t : Mesh) : Prop where
  idx : ∀ e ∈ t.edges, e.1 < k ∧ e.2 < k
  tidx : ∀ a ∈ t.tris, a.1 < k ∧ a.2.1 < k ∧ a.2.2 < k
  inj : ∀ e ∈ t.edges, ∀ e' ∈ t.edges, m.edge e = m.edge e' → e = e'
  nodup : t.edges.Nodup
  hull : HullInv (m.first k) {e | ∃ i ∈ t.edges, m.edge i = e}
  nonneg : 0 ≤ m.triSum t.tris
  pos : ∀ a ∈ t.tris, 0 < cross (m.pt a.1) (m.pt a.2.1) (m.pt a.2.2)
  count : t.tris.length + 2 ≤ k
  area : volume (convexHull ℝ (m.first k)) = ENNReal.ofReal (m.triSum t.tris / 2)

theorem scan_none {m : Mem ℝ} {ip : Nat} {es : List (Nat × Nat)} {w : Work}
    (h : ∀ e ∈ es, m.isEdgeVisible ip e.1 e.2 = .ok false) : m.scan ip es w = .ok w := by
  induction es with
  | nil => rfl
  | cons e es ih =>
    simp only [Mem.scan, h e (by simp), bind, Except.bind]
    exact ih fun e' he' => h e' (by simp [he'])

theorem scan_one {m : Mem ℝ} {ip : Nat} {es : List (Nat × Nat)} {w : Work} {e0 : Nat × Nat} (h0 : e0 ∈ es)
    (hnd : es.Nodup) (hv : m.isEdgeVisible ip e0.1 e0.2 = .ok true)
    (h : ∀ e ∈ es, e ≠ e0 → m.isEdgeVisible ip e.1 e.2 = .ok false) :
    m.scan ip es w = .ok { tris := setInsert lt3 w.tris (e0.1, ip, e0.2)
                           remove := setInsert lt2 w.remove e0
                           add := setInsert lt2 (setInsert lt2 w.add (e0.1, ip)) (ip, e0.2) } := by
  induction es with
  | nil => simp at h0
  | cons e es ih =>
    rw [List.nodup_cons] at hnd
    by_cases he : e = e0
    · subst he
      simp only [Mem.scan, hv, bind, Except.bind, if_true]
      apply scan_none
      intro e' he'
      exact h e' (by simp [he']) (fun h0 => hnd.1 (h0 ▸ he'))
    · simp only [Mem.scan, h e (by simp) he, bind, Except.bind]
      refine ih ?_ hnd.2 (fun e' he' => h e' (by simp [he']))
      simp only [List.mem_cons] at h0
      exact h0.resolve_left (fun h1 => he h1.symm)

theorem visible_ok {m : Mem ℝ} (hm : m.readable ≤ m.buf.length) {ip a b : Nat} (hi : ip < m.readable)
    (ha : a < m.readable) (hb : b < m.readable) :
    m.isEdgeVisible ip a b = .ok (decide (cross (m.pt a) (m.pt b) (m.pt ip) < -eps)) := by
  simp only [Mem.isEdgeVisible, Mem.area_ok hm hi ha hb, bind, Except.bind, pure, Except.pure, cross_cyc]

theorem addPoint_inv {m : Mem ℝ} (hm : m.readable ≤ m.buf.length) {k : Nat} (hk : k < m.readable)
    (hclean : TolClean (m.first m.readable)) (hsup : ∀ v ∈ m.first m.readable, Supported (m.first m.readable) v)
    {t : Mesh} (inv : MeshInv m k t) : ∃ t', m.addPoint k t = .ok t' ∧ MeshInv m (k + 1) t' := by
  set P := m.first m.readable with hP
  have hmem : ∀ i, i < m.readable → m.pt i ∈ P := fun i hi => ⟨i, hi, rfl⟩
  have hSP : m.first k ⊆ P := by
    rintro p ⟨i, hi, rfl⟩
    exact hmem i (by omega)
  have hvis : ∀ e ∈ t.edges, m.isEdgeVisible k e.1 e.2 = .ok (decide (cross (m.pt e.1) (m.pt e.2) (m.pt k) < -eps)) :=
    fun e he => visible_ok hm hk (by have := inv.idx e he; omega) (by have := inv.idx e he; omega)
  have hsign : ∀ e ∈ t.edges, (cross (m.pt e.1) (m.pt e.2) (m.pt k) < -eps ↔ cross (m.pt e.1) (m.pt e.2) (m.pt k) < 0) := by
    intro e he
    have hb := inv.idx e he
    have heps : (0 : ℝ) < eps := by rw [eps_real]; norm_num
    constructor
    · intro h; linarith
    · intro h
      rcases hclean.area _ (hmem e.1 (by omega)) _ (hmem e.2 (by omega)) _ (hmem k hk) with h0 | h0
      · rw [← cross_area2] at h0; linarith
      · rw [← cross_area2, abs_of_neg h] at h0
        rw [eps_real]; linarith
  by_cases hex : ∃ e ∈ t.edges, cross (m.pt e.1) (m.pt e.2) (m.pt k) < 0
  · obtain ⟨e, he, hv⟩ := hex
    have huniq : ∀ e' ∈ t.edges, cross (m.pt e'.1) (m.pt e'.2) (m.pt k) < 0 → e' = e := by
      intro e' he' hv'
      apply inv.inj e' he' e he
      exact visible_unique inv.hull hSP (hmem k hk) (fun v hv => hsup v (hSP hv)) ⟨e', he', rfl⟩ ⟨e, he, rfl⟩ hv' hv
    have hs := scan_one (w := { tris := t.tris, remove := [], add := [] }) he inv.nodup
      (by rw [hvis e he, decide_eq_true ((hsign e he).mpr hv)])
      (fun e' he' hne => by
        rw [hvis e' he', decide_eq_false]
        intro h0
        exact hne (huniq e' he' ((hsign e' he').mp h0)))
    have hidx := inv.idx e he
    have hadd : (setInsert lt2 (setInsert lt2 [] (e.1, k)) (k, e.2)).Perm [(k, e.2), (e.1, k)] := by
      have h1 : setInsert lt2 [] (e.1, k) = [(e.1, k)] := rfl
      rw [h1]
      apply setInsert_perm lt2_tri
      simp only [List.mem_singleton, Prod.mk.injEq]
      omega
    -- the new edges
    have hfold : ∀ (l : List (Nat × Nat)) (l0 : List (Nat × Nat)), l.Nodup → (∀ x ∈ l, x ∉ l0) →
        (l.foldl (setInsert lt2) l0).Perm (l ++ l0) := by
      intro l
      induction l with
      | nil => intro l0 _ _; exact List.Perm.refl _
      | cons x l ih =>
        intro l0 hnd hx
        rw [List.nodup_cons] at hnd
        have hp := setInsert_perm lt2_tri l0 x (hx x (by simp))
        refine (ih _ hnd.2 ?_).trans ?_
        · intro y hy hy'
          have := hp.mem_iff.mp hy'
          simp only [List.mem_cons] at this
          rcases this with rfl | h
          · exact hnd.1 hy
          · exact hx y (by simp [hy]) h
        · exact (hp.append_left l).trans List.perm_middle
    have hnotin : ∀ x : Nat × Nat, (x.1 = k ∨ x.2 = k) → x ∉ t.edges := by
      intro x hx hxe
      have := inv.idx x hxe
      omega
    have hedges : ((setInsert lt2 (setInsert lt2 [] (e.1, k)) (k, e.2)).foldl (setInsert lt2) (t.edges.erase e)).Perm
        ((k, e.2) :: (e.1, k) :: t.edges.erase e) := by
      refine (hfold _ _ ?_ ?_).trans (hadd.append_right _)
      · rw [hadd.nodup_iff]
        simp only [List.nodup_cons, List.mem_singleton, Prod.mk.injEq, List.not_mem_nil, not_false_eq_true,
          List.nodup_nil, and_true]
        omega
      · intro x hx hxe
        have := hadd.mem_iff.mp hx
        simp only [List.mem_cons, List.not_mem_nil, or_false] at this
        refine hnotin x ?_ (List.mem_of_mem_erase hxe)
        rcases this with rfl | rfl <;> simp
    have htris : (setInsert lt3 t.tris (e.1, k, e.2)).Perm ((e.1, k, e.2) :: t.tris) := by
      apply setInsert_perm lt3_tri
      intro h0
      have := inv.tidx _ h0
      dsimp only at this
      omega
    refine ⟨_, by simp only [Mem.addPoint, hs, bind, Except.bind, pure, Except.pure]; rfl, ?_⟩
    have hrem : (setInsert lt2 [] e).foldl (fun l e => l.erase e) t.edges = t.edges.erase e := rfl
    obtain ⟨hI, hE, hcap, hpH⟩ := inv.hull.add_visible (a := m.pt e.1) (b := m.pt e.2) (p := m.pt k) ⟨e, he, rfl⟩ hv
      (by
        rintro _ ⟨e', he', rfl⟩ hne
        by_contra hcon
        rw [not_le] at hcon
        exact hne (by rw [huniq e' he' hcon]; rfl))
    have hmemE : ∀ x, x ∈ (setInsert lt2 (setInsert lt2 [] (e.1, k)) (k, e.2)).foldl (setInsert lt2) (t.edges.erase e) ↔
        x = (k, e.2) ∨ x = (e.1, k) ∨ (x ≠ e ∧ x ∈ t.edges) := by
      intro x
      rw [hedges.mem_iff]
      simp only [List.mem_cons, inv.nodup.mem_erase_iff]
    have hkS : m.pt k ∉ m.first k := fun h0 => hpH (subset_convexHull ℝ _ h0)
    have hptne : ∀ i, i < k → m.pt i ≠ m.pt k := fun i hi h0 => hkS ⟨i, hi, h0⟩
    rw [hrem]
    have hsum : m.triSum (setInsert lt3 t.tris (e.1, k, e.2)) =
        cross (m.pt e.1) (m.pt k) (m.pt e.2) + m.triSum t.tris := by
      unfold Mem.triSum
      rw [(htris.map _).sum_eq, List.map_cons, List.sum_cons]
    have hpos : 0 < cross (m.pt e.1) (m.pt k) (m.pt e.2) := by
      have : cross (m.pt e.1) (m.pt k) (m.pt e.2) = - cross (m.pt e.1) (m.pt e.2) (m.pt k) := by simp only [cross]; ring
      linarith
    refine ⟨?_, ?_, ?_, ?_, ?_, ?_, ?_, ?_, ?_⟩
    · intro x hx
      rcases (hmemE x).mp hx with rfl | rfl | ⟨_, hx⟩
      · dsimp only; omega
      · dsimp only; omega
      · have := inv.idx x hx; omega
    · intro x hx
      rcases List.mem_cons.mp (htris.mem_iff.mp hx) with rfl | hx
      · dsimp only; omega
      · have := inv.tidx x hx; omega
    · intro x hx y hy hxy
      have h1 := (Prod.ext_iff.mp hxy).1
      have h2 := (Prod.ext_iff.mp hxy).2
      simp only [Mem.edge] at h1 h2
      have old : ∀ x ∈ t.edges, m.pt x.1 ≠ m.pt k ∧ m.pt x.2 ≠ m.pt k := fun x hx =>
        ⟨hptne _ (inv.idx x hx).1, hptne _ (inv.idx x hx).2⟩
      have n1 := hptne _ hidx.1
      have n2 := hptne _ hidx.2
      rcases (hmemE x).mp hx with rfl | rfl | ⟨_, hx⟩ <;> rcases (hmemE y).mp hy with rfl | rfl | ⟨_, hy⟩
      · rfl
      · exact absurd h1.symm n1
      · exact absurd h1.symm (old y hy).1
      · exact absurd h1 n1
      · rfl
      · exact absurd h2.symm (old y hy).2
      · exact absurd h1 (old x hx).1
      · exact absurd h2 (old x hx).2
      · exact inv.inj x hx y hy hxy
    · rw [hedges.nodup_iff, List.nodup_cons, List.nodup_cons]
      refine ⟨?_, ?_, inv.nodup.erase e⟩
      · simp only [List.mem_cons, not_or, Prod.mk.injEq]
        exact ⟨by omega, fun h0 => hnotin (k, e.2) (Or.inl rfl) (List.mem_of_mem_erase h0)⟩
      · exact fun h0 => hnotin (e.1, k) (Or.inr rfl) (List.mem_of_mem_erase h0)
    · rw [Mem.first_succ]
      convert hI using 1
      ext x
      simp only [Set.mem_union, Set.mem_sdiff, Set.mem_insert_iff, Set.mem_singleton_iff]
      constructor
      · rintro ⟨i, hi, rfl⟩
        rcases (hmemE i).mp hi with rfl | rfl | ⟨hne, hi⟩
        · right; right; rfl
        · right; left; rfl
        · left
          refine ⟨⟨i, hi, rfl⟩, fun h0 => hne (inv.inj i hi e he h0)⟩
      · rintro (⟨⟨i, hi, rfl⟩, hne⟩ | rfl | rfl)
        · refine ⟨i, (hmemE i).mpr (Or.inr (Or.inr ⟨?_, hi⟩)), rfl⟩
          rintro rfl
          exact hne rfl
        · exact ⟨(e.1, k), (hmemE _).mpr (Or.inr (Or.inl rfl)), rfl⟩
        · exact ⟨(k, e.2), (hmemE _).mpr (Or.inl rfl), rfl⟩
    · rw [hsum]; linarith [inv.nonneg]
    · intro x hx
      rcases List.mem_cons.mp (htris.mem_iff.mp hx) with rfl | hx
      · exact hpos
      · exact inv.pos x hx
    · rw [htris.length_eq, List.length_cons]
      have := inv.count
      omega
    · rw [Mem.first_succ, volume_add hv hE hcap, inv.area, hsum, ← ENNReal.ofReal_add (by linarith [inv.nonneg]) (by linarith)]
      congr 1
      ring
  · have hnone : ∀ e ∈ t.edges, 0 ≤ cross (m.pt e.1) (m.pt e.2) (m.pt k) := by
      intro e he
      by_contra hcon
      exact hex ⟨e, he, not_le.mp hcon⟩
    have hs := scan_none (m := m) (ip := k) (es := t.edges) (w := { tris := t.tris, remove := [], add := [] })
      (fun e he => by
        rw [hvis e he, decide_eq_false]
        intro h0
        have := (hsign e he).mp h0
        have := hnone e he
        linarith)
    obtain ⟨hI, hE⟩ := inv.hull.add_inside (p := m.pt k) (by
      rintro _ ⟨e, he, rfl⟩
      exact hnone e he)
    refine ⟨t, by simp only [Mem.addPoint, hs, bind, Except.bind, pure, Except.pure]; rfl, ?_⟩
    refine ⟨?_, ?_, inv.inj, inv.nodup, ?_, inv.nonneg, inv.pos, inv.count.trans (Nat.le_succ _), ?_⟩
    · intro e he; have := inv.idx e he; omega
    · intro a ha; have := inv.tidx a ha; omega
    · rw [Mem.first_succ]; exact hI
    · rw [Mem.first_succ, hE]; exact inv.area

theorem addPoint_empty (m : Mem ℝ) (k : Nat) : m.addPoint k { edges := [], tris := [] } = .ok { edges := [], tris := [] } := rfl

end Sg.Triangulate
