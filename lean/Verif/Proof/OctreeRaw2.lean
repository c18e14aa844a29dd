import Verif.Proof.OctreeRaw
/-
Helper lemmas for C131: the constructor of the octree on its vectors.
-/
set_option linter.unusedSectionVars false

namespace Sg.Octree
open Sg.FindPoint (Stop Call' lift' toSize smul resize)
open Sg.SideIterator (toInt wrap)

variable {F : Type} [Zero F] [One F] [Add F] [Sub F] [Mul F] [Div F] [Neg F] [LT F] [DecidableLT F] [NatCast F] {n : Nat}

/-- Insertion of the box of a key. -/
def ins (a b : Fin n → F) (m : List (List Nat × List F × List F)) (k : List Nat) : List (List Nat × List F × List F) :=
  mapInsert m k (List.ofFn (computeLoHi a b k).1, List.ofFn (computeLoHi a b k).2)

/-- Keys of one quadrant. -/
def subKeys (nq L : Nat) (key : List Nat) (iQ : Nat) : List (List Nat) :=
  if (key ++ [iQ]).length < L then (key ++ [iQ]) :: refineKeys nq L (key ++ [iQ]) else [key ++ [iQ]]

/-- Keys from quadrant `iQ` on. -/
def keysFrom (nq L : Nat) (key : List Nat) (iQ : Nat) : List (List Nat) := (List.range' iQ (nq - iQ)).flatMap (subKeys nq L key)

theorem refineKeys_eq (nq L : Nat) (key : List Nat) : refineKeys nq L key = keysFrom nq L key 0 := by
  rw [refineKeys]
  unfold keysFrom subKeys
  rw [List.range_eq_range', Nat.sub_zero]
  congr 1

theorem keysFrom_succ {nq : Nat} (L : Nat) (key : List Nat) {iQ : Nat} (h : iQ < nq) :
    keysFrom nq L key iQ = subKeys nq L key iQ ++ keysFrom nq L key (iQ + 1) := by
  unfold keysFrom
  rw [show nq - iQ = (nq - (iQ + 1)) + 1 by omega, List.range'_succ, List.flatMap_cons]

theorem toDouble_small {k : Nat} (h : k ≤ 9007199254740992) : toDouble k = k := by
  unfold toDouble; rw [if_pos h]

theorem visit_ok {a b : Fin n → F} {L : Nat} {t : RTree F} (h : Rep n a b L t) (key : List Nat) :
    t.visit key = .ok { t with octree := ins a b t.octree key } := by
  unfold RTree.visit
  rw [computeLoHi_raw h]
  rfl

theorem refine_ok (a b : Fin n → F) (L : Nat) (hn : n ≤ 53) : ∀ (d : Nat) (key : List Nat), L - key.length ≤ d → ∀ (r iQ : Nat), iQ + r = 2 ^ n →
    ∃ N, ∀ fuel, N ≤ fuel → ∀ t : RTree F, Rep n a b L t →
      t.refine fuel key iQ = .ok { t with octree := (keysFrom (2 ^ n) L key iQ).foldl (ins a b) t.octree } := by
  have hpow : (2 : Nat) ^ n ≤ 9007199254740992 := by
    calc (2 : Nat) ^ n ≤ 2 ^ 53 := Nat.pow_le_pow_right (by norm_num) hn
      _ = 9007199254740992 := by norm_num
  intro d
  induction d with
  | zero =>
    intro key hd r
    induction r with
    | zero =>
      intro iQ hr
      refine ⟨1, fun fuel hf t ht => ?_⟩
      obtain ⟨k, rfl⟩ : ∃ k, fuel = k + 1 := ⟨fuel - 1, by omega⟩
      rw [RTree.refine, if_neg (by rw [ht.ndims, toDouble_small (by omega)]; omega)]
      simp [keysFrom, show 2 ^ n - iQ = 0 by omega]
    | succ r ih =>
      intro iQ hr
      obtain ⟨N, hN⟩ := ih (iQ + 1) (by omega)
      refine ⟨N + 1, fun fuel hf t ht => ?_⟩
      obtain ⟨k, rfl⟩ : ∃ k, fuel = k + 1 := ⟨fuel - 1, by omega⟩
      rw [RTree.refine, if_pos (by rw [ht.ndims, toDouble_small (by omega)]; omega)]
      simp only [visit_ok ht, lift', ofCall, bind, Except.bind]
      have ht1 : Rep n a b L { t with octree := ins a b t.octree (key ++ [iQ]) } := ⟨ht.1, ht.2, ht.3, ht.4, ht.5⟩
      rw [if_neg (by rw [ht.nlevs]; simp; omega), show wrap (iQ + 1) = iQ + 1 from Nat.mod_eq_of_lt (by omega), hN k (by omega) _ ht1,
        keysFrom_succ _ _ (show iQ < 2 ^ n by omega), List.foldl_append, subKeys, if_neg (by simp; omega)]
      rfl
  | succ d ihd =>
    intro key hd r
    induction r with
    | zero =>
      intro iQ hr
      refine ⟨1, fun fuel hf t ht => ?_⟩
      obtain ⟨k, rfl⟩ : ∃ k, fuel = k + 1 := ⟨fuel - 1, by omega⟩
      rw [RTree.refine, if_neg (by rw [ht.ndims, toDouble_small (by omega)]; omega)]
      simp [keysFrom, show 2 ^ n - iQ = 0 by omega]
    | succ r ih =>
      intro iQ hr
      obtain ⟨N, hN⟩ := ih (iQ + 1) (by omega)
      obtain ⟨M, hM⟩ := ihd (key ++ [iQ]) (by simp; omega) (2 ^ n) 0 (by omega)
      refine ⟨max N M + 1, fun fuel hf t ht => ?_⟩
      obtain ⟨k, rfl⟩ : ∃ k, fuel = k + 1 := ⟨fuel - 1, by omega⟩
      rw [RTree.refine, if_pos (by rw [ht.ndims, toDouble_small (by omega)]; omega)]
      simp only [visit_ok ht, lift', ofCall, bind, Except.bind]
      rw [keysFrom_succ _ _ (show iQ < 2 ^ n by omega), List.foldl_append, subKeys]
      have ht1 : Rep n a b L { t with octree := ins a b t.octree (key ++ [iQ]) } := ⟨ht.1, ht.2, ht.3, ht.4, ht.5⟩
      by_cases hl : (key ++ [iQ]).length < L
      · rw [if_pos hl, if_pos (by rw [ht.nlevs]; exact hl), hM k (by omega) _ ht1]
        simp only
        rw [show wrap (iQ + 1) = iQ + 1 from Nat.mod_eq_of_lt (by omega), hN k (by omega) _ (by constructor <;> [exact ht.1; exact ht.2; exact ht.3; exact ht.4; exact ht.5]), refineKeys_eq]
        rfl
      · rw [if_neg hl, if_neg (by rw [ht.nlevs]; exact hl)]
        rw [show wrap (iQ + 1) = iQ + 1 from Nat.mod_eq_of_lt (by omega), hN k (by omega) _ ht1]
        rfl

/-- No key is visited twice. -/
theorem refineKeys_nodup (nq L : Nat) : ∀ (d : Nat) (key : List Nat), L - key.length ≤ d → (refineKeys nq L key).Nodup := by
  have sub_mem : ∀ key iQ k, k ∈ subKeys nq L key iQ → ∃ t, k = key ++ iQ :: t := by
    intro key iQ k hk
    unfold subKeys at hk
    split_ifs at hk
    · rcases List.mem_cons.1 hk with h | h
      · exact ⟨[], h⟩
      · obtain ⟨t, _, e, _⟩ := (mem_refineKeys _ _ _ _).1 h
        exact ⟨t, by rw [e]; simp⟩
    · exact ⟨[], by simpa using hk⟩
  have main : ∀ key, (∀ iQ, (subKeys nq L key iQ).Nodup) → (refineKeys nq L key).Nodup := by
    intro key hs
    rw [refineKeys_eq]
    unfold keysFrom
    rw [List.nodup_flatMap]
    refine ⟨fun iQ _ => hs iQ, ?_⟩
    refine List.Nodup.pairwise_of_forall_ne (List.nodup_range') ?_
    intro i _ j _ hij k hi hj
    obtain ⟨t, e1⟩ := sub_mem _ _ _ hi
    obtain ⟨t', e2⟩ := sub_mem _ _ _ hj
    rw [e1] at e2
    exact hij (List.cons.inj (List.append_cancel_left e2)).1
  intro d
  induction d with
  | zero =>
    intro key hd
    refine main key fun iQ => ?_
    unfold subKeys
    rw [if_neg (by simp; omega)]
    simp
  | succ d ih =>
    intro key hd
    refine main key fun iQ => ?_
    unfold subKeys
    split_ifs
    · refine List.nodup_cons.2 ⟨fun h => ?_, ih _ (by simp; omega)⟩
      obtain ⟨t, ht, e, _⟩ := (mem_refineKeys _ _ _ _).1 h
      exact ht (List.self_eq_append_right.1 e)
    · simp

theorem foldl_ins (a b : Fin n → F) : ∀ (l : List (List Nat)) (m : List (List Nat × List F × List F)), l.Nodup → (∀ k ∈ l, ∀ e ∈ m, e.1 ≠ k) →
    l.foldl (ins a b) m = m ++ l.map fun k => (k, List.ofFn (computeLoHi a b k).1, List.ofFn (computeLoHi a b k).2)
  | [], m, _, _ => by simp
  | k :: l, m, hl, hm => by
    have hk : ins a b m k = m ++ [(k, List.ofFn (computeLoHi a b k).1, List.ofFn (computeLoHi a b k).2)] := by
      unfold ins mapInsert
      rw [if_neg]
      simp only [List.any_eq_true, decide_eq_true_eq, not_exists, not_and]
      exact fun e he => hm k List.mem_cons_self e he
    rw [List.foldl_cons, hk, foldl_ins a b l _ (List.nodup_cons.1 hl).2]
    · simp
    · intro k' hk' e he
      rcases List.mem_append.1 he with h | h
      · exact hm k' (List.mem_cons_of_mem _ hk') e h
      · rw [List.mem_singleton.1 h]
        intro e
        subst e
        exact (List.nodup_cons.1 hl).1 hk'

/-- The entries of a tree, as vectors. -/
def entries (t : Tree F n) : List (List Nat × List F × List F) := t.octree.map fun e => (e.1, List.ofFn e.2.1, List.ofFn e.2.2)

theorem refine_build (a b : Fin n → F) (L : Nat) (hn : n ≤ 53) : ∃ N, ∀ fuel, N ≤ fuel → ∀ t : RTree F, Rep n a b L t → t.octree = [] →
    t.refine fuel [] 0 = .ok { t with octree := entries (build a b L) } := by
  obtain ⟨N, hN⟩ := refine_ok a b L hn L [] (by simp) (2 ^ n) 0 (by omega)
  refine ⟨N, fun fuel hf t ht h0 => ?_⟩
  rw [hN fuel hf t ht, h0, ← refineKeys_eq, foldl_ins a b _ [] (refineKeys_nodup _ _ L [] (by simp)) (by simp)]
  simp [entries, build]

theorem corners_ok (hn : n ≠ 0) (big : F) (points : List F) :
    ∃ b, boundsFlat n big points = .ok b ∧
      cornersRaw n points (List.replicate n big) (List.replicate n (-big)) = .ok (List.ofFn b.1, List.ofFn b.2) := by
  unfold boundsFlat cornersRaw
  have := forN_rel (fun _ (s : List F × List F) (b : (Fin n → F) × (Fin n → F)) => s = (List.ofFn b.1, List.ofFn b.2) )
    (fun i s => (do
      if n = 0 then throw .divByZero
      let dim := i % n
      let p ← vget points i
      let a ← vget s.1 dim
      let lo ← vset s.1 dim (if p < a then p else a)
      let b ← vget s.2 dim
      let hi ← vset s.2 dim (if b < p then p else b)
      return (lo, hi) : Cxx (List F × List F)))
    (fun i lohi => (do
      if n = 0 then throw .divByZero
      let p ← vget points i
      return boundsStep i p lohi : Cxx ((Fin n → F) × (Fin n → F)))) points.length
    (List.replicate n big, List.replicate n (-big)) (fun _ => big, fun _ => -big) (by simp) (by
      intro k s b hk hs
      subst hs
      have hd : k % n < n := Nat.mod_lt _ (by omega)
      refine Or.inl ⟨(List.ofFn (boundsStep k points[k] b).1, List.ofFn (boundsStep k points[k] b).2), boundsStep k points[k] b, ?_, ?_, rfl⟩
      · simp only [if_neg hn, bind, Except.bind, pure, Except.pure, vget_ok hk, vget_ofFn _ _ hd, vset_ofFn _ _ hd]
        unfold boundsStep
        congr 3 <;> funext j <;> rw [Function.update_apply] <;> by_cases e : j = ⟨k % n, hd⟩
        · subst e; simp
        · have : (j : Nat) ≠ k % n := fun h => e (Fin.ext h)
          simp [e, this]
        · subst e; simp
        · have : (j : Nat) ≠ k % n := fun h => e (Fin.ext h)
          simp [e, this]
      · simp only [if_neg hn, bind, Except.bind, pure, Except.pure, vget_ok hk])
  rcases this with ⟨s, b, e1, e2, e3⟩ | ⟨e, _, e2⟩
  · exact ⟨b, e2, by rw [e1, e3]⟩
  · obtain ⟨b, e3, _⟩ := forN_inv (fun _ _ => True) (fun i lohi => (do
      if n = 0 then throw .divByZero
      let p ← vget points i
      return boundsStep i p lohi : Cxx ((Fin n → F) × (Fin n → F)))) points.length (fun _ => big, fun _ => -big) trivial (by
        intro k b hk _
        exact ⟨boundsStep k points[k] b, by simp only [if_neg hn, bind, Except.bind, pure, Except.pure, vget_ok hk], trivial⟩)
    rw [e3] at e2
    cases e2

/-- The strides are powers of two modulo `2^64`. -/
theorem strides_mod (hn : n ≠ 0) (hn2 : n ≤ 2147483647) :
    stridesRaw n (List.replicate n 1) = .ok (List.ofFn fun j : Fin n => 2 ^ (n - 1 - (j : Nat)) % 18446744073709551616) := by
  unfold stridesRaw
  have hs : toInt (wrap (n + 18446744073709551614)) = (n : Int) - 2 := by
    unfold toInt wrap
    split_ifs <;> omega
  simp only [hs]
  obtain ⟨pd, e1, e2⟩ := forN_inv (fun k (pd : List Nat) => pd = List.ofFn fun j : Fin n =>
      if n ≤ j + k + 1 then 2 ^ (n - 1 - (j : Nat)) % 18446744073709551616 else 1)
    (fun k pd => (do
      let x ← vget pd (((n : Int) - 2 - k).toNat + 1)
      vset pd ((n : Int) - 2 - k).toNat (smul x 2) : Cxx (List Nat))) ((n : Int) - 2 + 1).toNat (List.replicate n 1) (by
      rw [replicate_ofFn]
      refine congrArg List.ofFn (funext fun j => ?_)
      have := j.2
      split_ifs with h
      · rw [show n - 1 - (j : Nat) = 0 by omega]; rfl
      · rfl) (by
    intro k pd hk hpd
    subst hpd
    have e1 : ((n : Int) - 2 - k).toNat = n - 2 - k := by omega
    rw [e1, vget_ofFn _ _ (show n - 2 - k + 1 < n by omega)]
    simp only [bind, Except.bind]
    rw [vset_ofFn _ _ (show n - 2 - k < n by omega)]
    refine ⟨_, rfl, ?_⟩
    refine congrArg List.ofFn (funext fun j => ?_)
    rw [Function.update_apply]
    by_cases e : j = ⟨n - 2 - k, by omega⟩
    · subst e
      simp only [if_true]
      rw [if_pos (by omega), if_pos (by omega)]
      unfold smul
      rw [show n - 1 - (n - 2 - k) = (n - 1 - (n - 2 - k + 1)) + 1 by omega, pow_succ, Nat.mod_mul_mod]
    · have : (j : Nat) ≠ n - 2 - k := fun h => e (Fin.ext h)
      rw [if_neg e]
      split_ifs <;> first | rfl | omega)
  rw [e1, e2]
  refine congrArg Except.ok (congrArg List.ofFn (funext fun j => ?_))
  have := j.2
  rw [if_pos (by omega)]

theorem prodDims_mod (h64 : n ≤ 64) :
    (List.ofFn fun j : Fin n => 2 ^ (n - 1 - (j : Nat)) % 18446744073709551616) = List.ofFn fun j : Fin n => prodDims n j := by
  refine congrArg List.ofFn (funext fun j => ?_)
  rw [prodDims_eq n j j.2]
  refine Nat.mod_eq_of_lt ?_
  calc 2 ^ (n - 1 - (j : Nat)) ≤ 2 ^ 63 := Nat.pow_le_pow_right (by norm_num) (by omega)
    _ < 18446744073709551616 := by norm_num

/-- The recursion ends with the same vectors or runs out of fuel. -/
theorem refine_or (a b : Fin n → F) (L : Nat) : ∀ (fuel : Nat) (t : RTree F) (key : List Nat) (iQ : Nat), Rep n a b L t →
    (∃ t', t.refine fuel key iQ = .ok t' ∧ Rep n a b L t') ∨ t.refine fuel key iQ = .error .fuel
  | 0, _, _, _, _ => Or.inr rfl
  | k + 1, t, key, iQ, ht => by
    rw [RTree.refine]
    split_ifs with h
    · have ht1 : Rep n a b L { t with octree := ins a b t.octree (key ++ [iQ]) } := ⟨ht.1, ht.2, ht.3, ht.4, ht.5⟩
      simp only [visit_ok ht, lift', ofCall, bind, Except.bind]
      split_ifs with h2
      · rcases refine_or a b L k _ (key ++ [iQ]) 0 ht1 with ⟨t', e, ht'⟩ | e
        · rw [e]; exact refine_or a b L k t' key _ ht'
        · rw [e]; exact Or.inr rfl
      · exact refine_or a b L k _ key _ ht1
    · exact Or.inl ⟨t, rfl, ht⟩

/-- With more than 53 axes the first `2^53` rounds do not end the loop. -/
theorem refine_long (a b : Fin n → F) (L : Nat) (hn : 53 ≤ n) : ∀ (fuel : Nat) (t : RTree F) (key : List Nat) (iQ : Nat), Rep n a b L t →
    iQ + fuel ≤ 9007199254740992 → t.refine fuel key iQ = .error .fuel
  | 0, _, _, _, _, _ => rfl
  | k + 1, t, key, iQ, ht, hq => by
    have hp : (9007199254740992 : Nat) ≤ 2 ^ n := by
      calc 9007199254740992 = 2 ^ 53 := by norm_num
        _ ≤ 2 ^ n := Nat.pow_le_pow_right (by norm_num) hn
    have ht1 : Rep n a b L { t with octree := ins a b t.octree (key ++ [iQ]) } := ⟨ht.1, ht.2, ht.3, ht.4, ht.5⟩
    rw [RTree.refine, if_pos (by rw [ht.ndims, toDouble_small (by omega)]; omega)]
    simp only [visit_ok ht, lift', ofCall, bind, Except.bind]
    have hw : wrap (iQ + 1) = iQ + 1 := Nat.mod_eq_of_lt (by omega)
    rw [hw]
    split_ifs with h2
    · rcases refine_or a b L k _ (key ++ [iQ]) 0 ht1 with ⟨t', e, ht'⟩ | e
      · rw [e]; exact refine_long a b L hn k t' key _ ht' (by omega)
      · rw [e]
    · exact refine_long a b L hn k _ key _ ht1 (by omega)

/-- With many levels the recursion goes deeper with each round. -/
theorem refine_deep (a b : Fin n → F) (L : Nat) : ∀ (fuel : Nat) (t : RTree F) (key : List Nat), Rep n a b L t →
    key.length + fuel ≤ L → t.refine fuel key 0 = .error .fuel
  | 0, _, _, _, _ => rfl
  | 1, t, key, ht, _ => by
    have ht1 : Rep n a b L { t with octree := ins a b t.octree (key ++ [0]) } := ⟨ht.1, ht.2, ht.3, ht.4, ht.5⟩
    rw [RTree.refine, if_pos (by rw [toDouble_small (by omega)]; positivity)]
    simp only [visit_ok ht, lift', ofCall, bind, Except.bind]
    split_ifs <;> rfl
  | k + 2, t, key, ht, hq => by
    have ht1 : Rep n a b L { t with octree := ins a b t.octree (key ++ [0]) } := ⟨ht.1, ht.2, ht.3, ht.4, ht.5⟩
    rw [RTree.refine, if_pos (by rw [toDouble_small (by omega)]; positivity)]
    simp only [visit_ok ht, lift', ofCall, bind, Except.bind]
    rw [if_pos (by rw [ht.nlevs]; simp; omega), refine_deep a b L (k + 1) _ (key ++ [0]) ht1 (by simp; omega)]

/-- Keys of the points. -/
def pointKeys [HasFloor F] (a b : Fin n → F) (L : Nat) (points : List F) : List (Nat × List Nat) :=
  (List.range (points.length / n)).map fun i => (i, getKey a b (pointOf n points (i * n)) L)

theorem nodes_raw [HasFloor F] {a b : Fin n → F} {L : Nat} {t : RTree F} (h : Rep n a b L t) (hn : n < 64) (points : List F) (h0 : t.node2Key = []) :
    (forN (points.length / n) t fun i t => (do
      let key ← t.getKey points (i * n) t.nlevs
      return { t with node2Key := mapInsert t.node2Key i key } : Cxx (RTree F))) = .ok { t with node2Key := pointKeys a b L points } := by
  obtain ⟨s, e1, e2⟩ := forN_inv (fun k (s : RTree F) =>
      s = { t with node2Key := (List.range k).map fun i => (i, getKey a b (pointOf n points (i * n)) L) }) (fun i t => (do
      let key ← t.getKey points (i * n) t.nlevs
      return { t with node2Key := mapInsert t.node2Key i key } : Cxx (RTree F))) (points.length / n) t (by rw [List.range_zero, List.map_nil, ← h0]) (by
    intro k s hk hs
    have ht : Rep n a b L s := by subst hs; exact ⟨h.1, h.2, h.3, h.4, h.5⟩
    have hb : k * n + n ≤ points.length := by
      have h1 : (k + 1) * n ≤ points.length / n * n := Nat.mul_le_mul_right n hk
      have h2 := Nat.div_mul_le_self points.length n
      rw [Nat.succ_mul] at h1
      omega
    rw [getKey_raw ht hn points (k * n) _ hb, ht.nlevs]
    refine ⟨_, rfl, ?_⟩
    subst hs
    have hm : mapInsert ((List.range k).map fun i => (i, getKey a b (pointOf n points (i * n)) L)) k (getKey a b (pointOf n points (k * n)) L) =
        (List.range (k + 1)).map fun i => (i, getKey a b (pointOf n points (i * n)) L) := by
      unfold mapInsert
      rw [if_neg, List.range_succ, List.map_append]
      · rfl
      · simp only [List.any_eq_true, decide_eq_true_eq, not_exists, not_and]
        intro e he
        obtain ⟨i, hi, rfl⟩ := List.mem_map.1 he
        have := List.mem_range.1 hi
        simp only
        omega
    simp only
    rw [hm, h.nlevs])
  rw [e1, e2]
  rfl

theorem nodes_flat [HasFloor F] (a b : Fin n → F) (L : Nat) (points : List F) :
    (forN (points.length / n) ([] : List (Nat × List Nat)) fun i keys => (do
      let p ← readPoint n points i
      return keys ++ [(i, (build a b L).node2Key p)] : Cxx (List (Nat × List Nat)))) = .ok (pointKeys a b L points) := by
  obtain ⟨s, e1, e2⟩ := forN_inv (fun k (s : List (Nat × List Nat)) =>
      s = (List.range k).map fun i => (i, getKey a b (pointOf n points (i * n)) L)) (fun i keys => (do
      let p ← readPoint n points i
      return keys ++ [(i, (build a b L).node2Key p)] : Cxx (List (Nat × List Nat)))) (points.length / n) [] (by simp) (by
    intro k s hk hs
    have hb : (k + 1) * n ≤ points.length :=
      (Nat.mul_le_mul_right n hk).trans (Nat.div_mul_le_self points.length n)
    have hr : readPoint n points k = .ok (pointOf n points (k * n)) := by
      unfold readPoint
      rw [dif_pos hb]
      congr 1
      funext j
      have hj := j.2
      have h2 : (k + 1) * n = k * n + n := Nat.succ_mul k n
      simp [pointOf, List.getElem?_eq_getElem (show k * n + (j : Nat) < points.length by omega)]
    refine ⟨_, by rw [hr]; rfl, ?_⟩
    subst hs
    rw [List.range_succ, List.map_append]
    rfl)
  rw [e1, e2]
  rfl

theorem resize_nil {α : Type} (hn2 : n ≤ 2147483647) (x : α) : resize [] n x = .ok (List.replicate n x) := by
  unfold resize
  rw [if_pos (le_trans hn2 (by norm_num))]
  simp

theorem ok_bind {ε α β : Type} (x : α) (f : α → Except ε β) : (Except.ok x >>= f) = f x := rfl

theorem ofCall_ok {α : Type} (x : α) : ofCall (.ok x) = .ok x := rfl

theorem lift_ok {α : Type} (x : α) : lift' (.ok x) = .ok x := rfl

theorem new_parts [HasFloor F] (fuel : Nat) (big : F) (L : Nat) (points : List F) (hn : n ≠ 0) {lo hi lo' hi' : List F} {pd S : List Nat}
    (h1 : resize [] n big = .ok lo) (h2 : resize [] n (-big) = .ok hi) (h3 : cornersRaw n points lo hi = .ok (lo', hi'))
    (h4 : resize [] n 1 = .ok pd) (h5 : stridesRaw n pd = .ok S) : RTree.new fuel big L n points = (do
      let t ← RTree.refine fuel { octree := [], node2Key := [], prodDims := S, xmins := lo', xmaxs := hi', ndims := n, nlevs := L } [] 0
      ofCall (lift' (forN (points.length / n) t fun i t => (do
        let key ← t.getKey points (i * n) t.nlevs
        return { t with node2Key := mapInsert t.node2Key i key } : Cxx (RTree F)))) : Run (RTree F)) := by
  unfold RTree.new
  rw [h1, ofCall_ok, ok_bind, h2, ofCall_ok, ok_bind, h3, lift_ok, ofCall_ok, ok_bind, h4, ofCall_ok, ok_bind, h5, lift_ok, ofCall_ok, ok_bind]
  dsimp only
  rcases RTree.refine fuel { octree := [], node2Key := [], prodDims := S, xmins := lo', xmaxs := hi', ndims := n, nlevs := L } [] 0 with e | t
  · rfl
  · rw [ok_bind, ok_bind, if_neg hn]

/-- The object before the recursion. -/
def startTree (b : (Fin n → F) × (Fin n → F)) (L : Nat) : RTree F :=
  { octree := [], node2Key := [], prodDims := List.ofFn fun j : Fin n => 2 ^ (n - 1 - (j : Nat)) % 18446744073709551616
    xmins := List.ofFn b.1, xmaxs := List.ofFn b.2, ndims := n, nlevs := L }

/-- The constructor up to the recursion. -/
theorem new_start [HasFloor F] (fuel : Nat) (big : F) (L : Nat) (points : List F) (hn : n ≠ 0) (hn2 : n ≤ 2147483647) :
    ∃ b : (Fin n → F) × (Fin n → F), boundsFlat n big points = .ok b ∧ RTree.new fuel big L n points = (do
      let t ← RTree.refine fuel (startTree b L) [] 0
      ofCall (lift' (forN (points.length / n) t fun i t => (do
        let key ← t.getKey points (i * n) t.nlevs
        return { t with node2Key := mapInsert t.node2Key i key } : Cxx (RTree F)))) : Run (RTree F)) := by
  obtain ⟨b, e1, e2⟩ := corners_ok hn big points
  exact ⟨b, e1, new_parts fuel big L points hn (resize_nil hn2 _) (resize_nil hn2 _) e2 (resize_nil hn2 _) (strides_mod hn hn2)⟩

theorem startTree_rep (b : (Fin n → F) × (Fin n → F)) (L : Nat) (h64 : n ≤ 64) : Rep n b.1 b.2 L (startTree b L) := by
  have h := prodDims_mod h64
  unfold startTree
  constructor
  · exact h
  all_goals rfl

end Sg.Octree
