import Verif.Model.PyWrapper
import Mathlib.Data.List.Induction
/-
Properties C73, C74: the Python wrapper.
-/
namespace Sg.Props
open Sg.Py

theorem run_snoc (cs : List Call) (c : Call) : run (cs ++ [c]) = (call (run cs) c).2 := by
  simp [run, List.foldl_append]

/-- Some call of the history satisfied `p` and returned. -/
def Succeeded (cs : List Call) (p : Call → Prop) : Prop :=
  ∃ pre c post, cs = pre ++ c :: post ∧ p c ∧ (call (run pre) c).1 = true

theorem succeeded_snoc (cs : List Call) (x : Call) (p : Call → Prop) :
    Succeeded (cs ++ [x]) p ↔ Succeeded cs p ∨ (p x ∧ (call (run cs) x).1 = true) := by
  constructor
  · rintro ⟨pre, c, post, he, hp, hc⟩
    rcases List.eq_nil_or_concat post with rfl | ⟨post', y, rfl⟩
    · have := List.append_inj' he (by simp)
      obtain ⟨rfl, h2⟩ := this
      simp only [List.cons.injEq, and_true] at h2
      subst h2
      exact .inr ⟨hp, hc⟩
    · rw [List.concat_eq_append, ← List.cons_append, ← List.append_assoc] at he
      have := List.append_inj' he (by simp)
      exact .inl ⟨pre, c, post', this.1, hp, hc⟩
  · rintro (⟨pre, c, post, he, hp, hc⟩ | ⟨hp, hc⟩)
    · exact ⟨pre, c, post ++ [x], by simp [he], hp, hc⟩
    · exact ⟨cs, x, [], rfl, hp, hc⟩

def IsSetSrc : Call → Prop | .setSrcGrid _ => True | _ => False
def IsSetDst : Call → Prop | .setDstGrid _ => True | _ => False
def IsCompute (c : Call) : Prop := c = .computeWeights

theorem flags (cs : List Call) :
    ((run cs).hasSrcCoords = true ↔ ∃ c ∈ cs, IsSetSrc c) ∧
    ((run cs).dstData.isSome = true ↔ ∃ c ∈ cs, IsSetDst c) ∧
    ((run cs).hasInterpWeights = true ↔ Succeeded cs IsCompute) := by
  induction cs using List.reverseRecOn with
  | nil =>
    refine ⟨by simp [run, init], by simp [run, init], ?_⟩
    simp only [run, init, List.foldl_nil, Bool.false_eq_true, false_iff]
    rintro ⟨pre, c, post, h, _⟩
    simp at h
  | append_singleton cs x ih =>
    obtain ⟨h1, h2, h3⟩ := ih
    rw [run_snoc, succeeded_snoc]
    have memA : ∀ p : Call → Prop, (∃ c ∈ cs ++ [x], p c) ↔ (∃ c ∈ cs, p c) ∨ p x := by
      intro p; simp only [List.mem_append, List.mem_singleton]
      constructor
      · rintro ⟨c, hc | rfl, hp⟩
        · exact .inl ⟨c, hc, hp⟩
        · exact .inr hp
      · rintro (⟨c, hc, hp⟩ | hp)
        · exact ⟨c, .inl hc, hp⟩
        · exact ⟨x, .inr rfl, hp⟩
    rw [memA, memA, ← h1, ← h2, ← h3]
    cases x with
    | setDstGrid g => simp [call, IsSetSrc, IsSetDst, IsCompute]
    | setSrcGrid g => simp [call, IsSetSrc, IsSetDst, IsCompute]
    | apply =>
      simp only [call]
      split <;> simp [IsSetSrc, IsSetDst, IsCompute]
    | computeWeights =>
      simp only [call]
      split
      · simp [IsSetSrc, IsSetDst, IsCompute]
      · split <;> simp [IsSetSrc, IsSetDst, IsCompute]

/-- C73: in every history, `computeWeights` raises exactly when one of the grids has never been set, `apply`
raises exactly when no `computeWeights` has returned, and a call that raises makes no native call and
leaves the object unchanged. -/
theorem C73_guards (cs : List Call) :
    ((call (run cs) .computeWeights).1 = true ↔ (∃ c ∈ cs, IsSetSrc c) ∧ ∃ c ∈ cs, IsSetDst c) ∧
    ((call (run cs) .apply).1 = true ↔ Succeeded cs IsCompute) ∧
    (∀ c, (call (run cs) c).1 = false → (call (run cs) c).2 = run cs) := by
  obtain ⟨h1, h2, h3⟩ := flags cs
  refine ⟨?_, ?_, ?_⟩
  · rw [← h1, ← h2]
    simp only [call]
    cases hs : (run cs).hasSrcCoords <;> cases hd : (run cs).dstData <;> simp
  · rw [← h3]
    simp only [call]
    cases hw : (run cs).hasInterpWeights <;> simp
  · intro c h
    cases c with
    | setDstGrid g => simp [call] at h
    | setSrcGrid g => simp [call] at h
    | apply =>
      simp only [call] at h ⊢
      split at h
      · rename_i hc; simp [hc]
      · simp at h
    | computeWeights =>
      simp only [call] at h ⊢
      split at h
      · rename_i hc; simp [hc]
      · rename_i hc
        split at h
        · rename_i hd; simp only [hc, hd]; simp
        · simp at h

/-- C73, seen from the native side: in the sequence of native calls, `apply` only comes after a
`computeWeights`, which only comes after both grids have been set. -/
theorem C73_native_order (cs : List Call) (i : Nat) :
    ((run cs).trace[i]? = some Native.apply → ∃ j < i, (run cs).trace[j]? = some Native.computeWeights) ∧
    ((run cs).trace[i]? = some Native.computeWeights →
      (∃ j < i, ∃ g, (run cs).trace[j]? = some (Native.setSrc g)) ∧ ∃ j < i, ∃ g, (run cs).trace[j]? = some (Native.setDst g)) := by
  have key : (∀ i : Nat, ((run cs).trace[i]? = some Native.apply → ∃ j < i, (run cs).trace[j]? = some Native.computeWeights) ∧
      ((run cs).trace[i]? = some Native.computeWeights →
        (∃ j < i, ∃ g, (run cs).trace[j]? = some (Native.setSrc g)) ∧ ∃ j < i, ∃ g, (run cs).trace[j]? = some (Native.setDst g))) ∧
      ((run cs).hasSrcCoords = true → ∃ g, Native.setSrc g ∈ (run cs).trace) ∧
      ((run cs).dstData.isSome = true → ∃ g, Native.setDst g ∈ (run cs).trace) ∧
      ((run cs).hasInterpWeights = true → Native.computeWeights ∈ (run cs).trace) := by
    induction cs using List.reverseRecOn with
    | nil =>
      refine ⟨fun i => ?_, by simp [run, init], by simp [run, init], by simp [run, init]⟩
      have : (run []).trace = [Native.new] := rfl
      rw [this]
      rcases i with _ | i <;> simp
    | append_singleton cs x ih =>
      obtain ⟨h1, h2, h3, h4⟩ := ih
      rw [run_snoc]
      generalize run cs = o at *
      -- appending one native call keeps the order as soon as that call is allowed
      have app : ∀ n : Native, (n = .apply → Native.computeWeights ∈ o.trace) →
          (n = .computeWeights → (∃ g, Native.setSrc g ∈ o.trace) ∧ ∃ g, Native.setDst g ∈ o.trace) →
          ∀ i : Nat, ((o.trace ++ [n])[i]? = some Native.apply → ∃ j < i, (o.trace ++ [n])[j]? = some Native.computeWeights) ∧
            ((o.trace ++ [n])[i]? = some Native.computeWeights →
              (∃ j < i, ∃ g, (o.trace ++ [n])[j]? = some (Native.setSrc g)) ∧
              ∃ j < i, ∃ g, (o.trace ++ [n])[j]? = some (Native.setDst g)) := by
        intro n ha hc i
        have lift : ∀ (j : Nat) y, o.trace[j]? = some y → (o.trace ++ [n])[j]? = some y := by
          intro j y hj
          have : j < o.trace.length := by
            by_contra hn; rw [List.getElem?_eq_none (by omega)] at hj; cases hj
          rw [List.getElem?_append_left this]; exact hj
        have pos : ∀ y, y ∈ o.trace → ∃ j : Nat, j < o.trace.length ∧ o.trace[j]? = some y := by
          intro y hy
          obtain ⟨j, hj, he⟩ := List.getElem_of_mem hy
          exact ⟨j, hj, by rw [List.getElem?_eq_getElem hj, he]⟩
        rcases Nat.lt_trichotomy i o.trace.length with hi | hi | hi
        · rw [List.getElem?_append_left hi]
          refine ⟨fun h => ?_, fun h => ?_⟩
          · obtain ⟨j, hj, he⟩ := (h1 i).1 h
            exact ⟨j, hj, lift j _ he⟩
          · obtain ⟨⟨j, hj, g, he⟩, ⟨j', hj', g', he'⟩⟩ := (h1 i).2 h
            exact ⟨⟨j, hj, g, lift j _ he⟩, ⟨j', hj', g', lift j' _ he'⟩⟩
        · subst hi
          rw [show (o.trace ++ [n])[o.trace.length]? = some n by simp]
          refine ⟨fun h => ?_, fun h => ?_⟩
          · obtain ⟨j, hj, he⟩ := pos _ (ha (Option.some.inj h))
            exact ⟨j, hj, lift j _ he⟩
          · obtain ⟨⟨g, hg⟩, ⟨g', hg'⟩⟩ := hc (Option.some.inj h)
            obtain ⟨j, hj, he⟩ := pos _ hg
            obtain ⟨j', hj', he'⟩ := pos _ hg'
            exact ⟨⟨j, hj, g, lift j _ he⟩, ⟨j', hj', g', lift j' _ he'⟩⟩
        · rw [List.getElem?_eq_none (by simp; omega)]
          exact ⟨fun h => (by cases h), fun h => (by cases h)⟩
      cases x with
      | setDstGrid g =>
        refine ⟨app (.setDst g) (by simp) (by simp), ?_, ?_, ?_⟩
        · intro h; obtain ⟨g', hg'⟩ := h2 h; exact ⟨g', List.mem_append_left _ hg'⟩
        · intro _; exact ⟨g, by simp [call]⟩
        · intro h; exact List.mem_append_left _ (h4 h)
      | setSrcGrid g =>
        refine ⟨app (.setSrc g) (by simp) (by simp), ?_, ?_, ?_⟩
        · intro _; exact ⟨g, by simp [call]⟩
        · intro h; obtain ⟨g', hg'⟩ := h3 h; exact ⟨g', List.mem_append_left _ hg'⟩
        · intro h; exact List.mem_append_left _ (h4 h)
      | apply =>
        simp only [call]
        split
        · exact ⟨h1, h2, h3, h4⟩
        · rename_i hw
          have hw' : o.hasInterpWeights = true := by simpa using hw
          refine ⟨app .apply (fun _ => h4 hw') (by simp), ?_, ?_, ?_⟩
          · intro h; obtain ⟨g', hg'⟩ := h2 h; exact ⟨g', List.mem_append_left _ hg'⟩
          · intro h; obtain ⟨g', hg'⟩ := h3 h; exact ⟨g', List.mem_append_left _ hg'⟩
          · intro h; exact List.mem_append_left _ (h4 h)
      | computeWeights =>
        simp only [call]
        split
        · exact ⟨h1, h2, h3, h4⟩
        · rename_i hs
          split
          · exact ⟨h1, h2, h3, h4⟩
          · rename_i hd
            have hs' : o.hasSrcCoords = true := by simpa using hs
            have hd' : o.dstData.isSome = true := by
              cases h : o.dstData <;> simp [h] at hd ⊢
            refine ⟨app .computeWeights (by simp) (fun _ => ⟨h2 hs', h3 hd'⟩), ?_, ?_, ?_⟩
            · intro h; obtain ⟨g', hg'⟩ := h2 h; exact ⟨g', List.mem_append_left _ hg'⟩
            · intro h; obtain ⟨g', hg'⟩ := h3 h; exact ⟨g', List.mem_append_left _ hg'⟩
            · intro _; simp
  exact key.1 i

/-- The native weights are those of the grids set last, computed once. -/
def Fresh (o : Obj) : Prop := o.weightsOf = [(o.curSrc, o.curDst)]

/-- C74, what holds: when the weights are computed once, after the last change of grid, `apply` uses weights
of the current grids.  Missing: other histories, see `C74_stale_refuted`. -/
theorem C74_fresh_partial (pre : List Call) (hpre : ∀ c ∈ pre, ¬ IsCompute c) (k : Nat)
    (hok : (call (run (pre ++ .computeWeights :: List.replicate k .apply)) .apply).1 = true) :
    Fresh (run (pre ++ .computeWeights :: List.replicate k .apply)) := by
  have hpre0 : (run pre).weightsOf = [] ∧ (run pre).hasInterpWeights = false := by
    clear hok
    induction pre using List.reverseRecOn with
    | nil => exact ⟨rfl, rfl⟩
    | append_singleton cs x ih =>
      have := ih (fun c hc => hpre c (by simp [hc]))
      rw [run_snoc]
      cases x with
      | setDstGrid g => exact this
      | setSrcGrid g => exact this
      | apply => simp [call, this]
      | computeWeights => exact absurd rfl (hpre .computeWeights (by simp))
  have happ : ∀ k (o : Obj), ((List.replicate k Call.apply).foldl (fun o c => (call o c).2) o).hasInterpWeights
        = o.hasInterpWeights ∧
      ((List.replicate k Call.apply).foldl (fun o c => (call o c).2) o).weightsOf = o.weightsOf ∧
      ((List.replicate k Call.apply).foldl (fun o c => (call o c).2) o).curSrc = o.curSrc ∧
      ((List.replicate k Call.apply).foldl (fun o c => (call o c).2) o).curDst = o.curDst := by
    intro k
    induction k with
    | zero => intro o; simp
    | succ k ih =>
      intro o
      rw [List.replicate_succ, List.foldl_cons]
      obtain ⟨a, b, c, d⟩ := ih (call o .apply).2
      rw [a, b, c, d]
      simp only [call]
      split <;> simp
  have hrun : run (pre ++ .computeWeights :: List.replicate k .apply) =
      (List.replicate k Call.apply).foldl (fun o c => (call o c).2) (call (run pre) .computeWeights).2 := by
    simp [run, List.foldl_append]
  rw [hrun] at hok ⊢
  obtain ⟨a, b, c, d⟩ := happ k (call (run pre) .computeWeights).2
  unfold Fresh
  rw [b, c, d]
  have hw : (call (run pre) .computeWeights).2.hasInterpWeights = true := by
    rw [← a]
    revert hok
    generalize (List.replicate k Call.apply).foldl (fun o c => (call o c).2) (call (run pre) .computeWeights).2 = o
    intro h
    simp only [call] at h
    split at h
    · simp at h
    · rename_i h'; simpa using h'
  simp only [call] at hw ⊢
  split at hw
  · rw [hpre0.2] at hw; cases hw
  · rename_i h1
    split at hw
    · rw [hpre0.2] at hw; cases hw
    · rename_i h2
      rw [if_neg h1, if_neg h2]
      simp [hpre0.1]

/-- C74 fails: after changing the destination grid, `apply` is accepted and runs with weights of the old
grid, on an output array of the new shape. -/
theorem C74_stale_refuted :
    ∃ cs, (call (run cs) .apply).1 = true ∧ ¬ Fresh (run cs) ∧
      (run cs).weightsOf = [(some ⟨4, 4, 0⟩, some ⟨11, 11, 1⟩)] ∧ (run cs).dstData = some (1, 1) := by
  refine ⟨[.setSrcGrid ⟨4, 4, 0⟩, .setDstGrid ⟨11, 11, 1⟩, .computeWeights, .setDstGrid ⟨2, 2, 2⟩], ?_, ?_, ?_, ?_⟩
  · decide
  · unfold Fresh; decide
  · decide
  · decide

/-! Hypotheses are met. -/
example : (call (run ([.setSrcGrid ⟨4, 4, 0⟩, .setDstGrid ⟨11, 11, 1⟩] ++ .computeWeights ::
    List.replicate 2 .apply)) .apply).1 = true := by decide
example : ∀ c ∈ ([.setSrcGrid ⟨4, 4, 0⟩, .setDstGrid ⟨11, 11, 1⟩] : List Call), ¬ IsCompute c := by
  unfold IsCompute; decide

end Sg.Props
