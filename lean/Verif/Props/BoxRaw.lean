import Verif.Proof.BoxIteratorRaw
import Verif.Props.BoxIterator
/-
Property C127: the box iterator with the integers and the memory of the interface.
-/
namespace Sg.Props
open Sg Sg.BoxIterator Sg.FindPoint Sg.Spec

/-- Memory behind a pointer that holds `n` integers at least: those of `v` come first. -/
def Begins (mem v : List Int) : Prop := ∃ rest, mem = v ++ rest

/-- **C127** construction: for every list of axes (no more than `INT_MAX`), with begin and end indices in memory, the constructor does what
it does in the model on lists: the object is the same, and it is undefined (overflow) exactly if that one is. -/
theorem C127_new (axes : List (Int × Int)) (hn : axes.length ≤ 2147483647) {beg end' : List Int} (hb : Begins beg (axes.map (·.1)))
    (he : Begins end' (axes.map (·.2))) : newRaw axes.length beg end' = lift' (BoxIterator.new axes) := by
  obtain ⟨r, rfl⟩ := hb
  obtain ⟨r', rfl⟩ := he
  refine newRaw_eq axes hn (fun i h => ?_) (fun i h => ?_)
  · rw [List.getElem?_append_left (by simpa using h)]; simp [h]
  · rw [List.getElem?_append_left (by simpa using h)]; simp [h]

/-- **C127** a negative number of axes is refused by an exception, before anything is read. -/
theorem C127_negative (ndims : Int) (h : inI32 ndims) (h0 : ndims < 0) (beg end' : List Int) :
    newRaw ndims beg end' = .error .lengthError := by
  unfold newRaw resize
  rw [if_neg (by have := toSize_neg h.1 h0; omega)]
  rfl

/-- **C127** index sets of fewer than `ndims` integers are read past their end, unless an overflow comes first: the constructor does not
return. -/
theorem C127_short {ndims : Nat} (beg end' : List Int) (h : beg.length < ndims ∨ end'.length < ndims) :
    ∀ b, newRaw ndims beg end' ≠ .ok b := by
  intro b hb
  unfold newRaw at hb
  have key : ∀ b0 b1, forN ndims b0 (fillRound beg end') = .ok b1 → False := by
    intro b0 b1 h1
    have := forN_inv_ok (fun k (_ : Box) => k ≤ beg.length ∧ k ≤ end'.length) (fillRound beg end') ndims b0 b1 (by simp) (by
      intro k s s' _ _ hs
      unfold fillRound at hs
      obtain ⟨x, hx, hs⟩ := bind_ok_inv hs
      obtain ⟨_, -, hs⟩ := bind_ok_inv hs
      obtain ⟨y, hy, hs⟩ := bind_ok_inv hs
      have l1 := (List.getElem?_eq_some_iff.1 (vget_eq_ok.1 hx)).1
      have l2 := (List.getElem?_eq_some_iff.1 (vget_eq_ok.1 hy)).1
      omega) h1
    omega
  simp only [bind, Except.bind, Int.toNat_natCast] at hb
  split at hb
  · cases hb
  · split at hb
    · cases hb
    · split at hb
      · cases hb
      · unfold lift' at hb
        split at hb
        · rename_i hh
          split at hh
          · cases hh
          · rename_i h1
            exact key _ _ h1
        · cases hb

/-- **C127** queries, for every object a construction gives and every flat index: `getElement` overwrites the first `ndims` integers of the
caller's array by the index set and leaves the others; it is undefined exactly if it is in the model on lists.  `getIndex` is that of the
model on lists for every memory. -/
theorem C127_queries (axes : List (Int × Int)) (b : Box) (h : BoxIterator.new axes = .ok b) (i : Int) (mem : List Int) :
    (axes.length ≤ mem.length → b.getElementRaw i mem = (b.getElement i).map fun t => t ++ mem.drop axes.length) ∧
    b.getIndexRaw mem = b.getIndex mem := by
  obtain ⟨h1, h2, h3⟩ := new_shape h
  have hl : b.dims.length = axes.length := by rw [h1]; simp
  refine ⟨fun hm => ?_, ?_⟩
  · have := getElementRaw_from b h2 h3 i b.dims.length 0 mem (by simp) (by omega)
    rw [hl] at this
    simpa [Box.getElementRaw, Box.getElement, forN, hl] using this
  · have := getIndexRaw_from b h2 h3 mem b.dims.length 0 0 (by simp)
    simpa [Box.getIndexRaw, Box.getIndex, forN] using this

/-- **C127** an array too short for the index set is written past its end. -/
theorem C127_short_element (axes : List (Int × Int)) (b : Box) (h : BoxIterator.new axes = .ok b) (i : Int) (mem : List Int)
    (hm : mem.length < axes.length) : ∀ v, b.getElementRaw i mem ≠ .ok v := by
  obtain ⟨h1, h2, h3⟩ := new_shape h
  have hl : b.dims.length = axes.length := by rw [h1]; simp
  intro v hv
  have := forN_inv_ok (fun k (w : List Int) => w.length = mem.length ∧ k ≤ mem.length) _ _ mem v ⟨rfl, by simp⟩ (by
    intro k s s' _ hP hs
    obtain ⟨_, -, hs⟩ := bind_ok_inv hs
    obtain ⟨_, -, hs⟩ := bind_ok_inv hs
    obtain ⟨_, -, hs⟩ := bind_ok_inv hs
    obtain ⟨_, -, hs⟩ := bind_ok_inv hs
    obtain ⟨_, -, hs⟩ := bind_ok_inv hs
    obtain ⟨_, -, hs⟩ := bind_ok_inv hs
    unfold vset at hs
    split_ifs at hs with hk
    cases hs
    exact ⟨by simp [hP.1], by omega⟩) hv
  omega

/-- **C127** round trip through the interface: for every box that can be iterated over and every flat index in range, the index set that
`getElement` leaves in memory of the caller leads back to the flat index. -/
theorem C127_roundtrip (axes : List (Int × Int)) (hg : GoodBox axes) (hn : axes.length ≤ 2147483647) {beg end' : List Int}
    (hb : Begins beg (axes.map (·.1))) (he : Begins end' (axes.map (·.2))) :
    ∃ b, newRaw axes.length beg end' = .ok b ∧ ∀ (i : Int) (mem : List Int), 0 ≤ i → i < b.getNumberOfElements →
      axes.length ≤ mem.length → ∃ mem', b.getElementRaw i mem = .ok mem' ∧ mem'.length = mem.length ∧ InBox axes (mem'.take axes.length) ∧
        b.getIndexRaw mem' = .ok i := by
  obtain ⟨b, h1, h2⟩ := C01_box_roundtrip_index axes hg
  refine ⟨b, by rw [C127_new axes hn hb he, h1]; rfl, fun i mem h0 hi hm => ?_⟩
  obtain ⟨t, e1, hin, e2⟩ := h2 i h0 hi
  have hlen : t.length = axes.length := hin.length_eq.symm
  obtain ⟨q1, -⟩ := C127_queries axes b h1 i mem
  refine ⟨t ++ mem.drop axes.length, by rw [q1 hm, e1]; rfl, by simp; omega, ?_, ?_⟩
  · rw [List.take_append_of_le_length (by omega), ← hlen, List.take_length]; exact hin
  · rw [(C127_queries axes b h1 i _).2]
    obtain ⟨s1, s2, s3⟩ := new_shape h1
    have hd : b.dims.length = axes.length := by rw [s1]; simp
    have key : ∀ (ls ps xs rest : List Int) acc, ls.length = xs.length → getIndexLoop acc ls ps (xs ++ rest) = getIndexLoop acc ls ps xs := by
      intro ls
      induction ls with
      | nil => intro ps xs rest acc _; simp [getIndexLoop]
      | cons l ls ih =>
        intro ps xs rest acc hl
        cases xs with
        | nil => simp at hl
        | cons x xs =>
          cases ps with
          | nil => simp [getIndexLoop]
          | cons p ps =>
            simp only [List.cons_append, getIndexLoop]
            have : ∀ a, getIndexLoop a ls ps (xs ++ rest) = getIndexLoop a ls ps xs := fun a => ih ps xs rest a (by simpa using hl)
            simp only [this]
    rw [← e2]
    exact key _ _ _ _ _ (by rw [s2, hd, hlen])

/-! ### Concrete cases -/

example : newRaw 2 [1, -1, 9] [4, 2] = .ok ⟨[1, -1], [3, 3], [3, 1], 9⟩ := by decide
example : (⟨[1, -1], [3, 3], [3, 1], 9⟩ : Box).getElementRaw 5 [70, 71, 72] = .ok [2, 1, 72] := by decide
example : (⟨[1, -1], [3, 3], [3, 1], 9⟩ : Box).getElementRaw 5 [70] = .error .outOfBounds := by decide
example : GoodBox [(1, 4), (-1, 2)] ∧ Begins [1, -1, 9] ([(1, 4), (-1, 2)].map (·.1)) := by
  refine ⟨⟨?_, ?_, by decide⟩, [9], rfl⟩
  · intro ax hax
    simp only [List.mem_cons, List.not_mem_nil, or_false] at hax
    rcases hax with rfl | rfl <;> decide
  · intro ax hax
    simp only [List.mem_cons, List.not_mem_nil, or_false] at hax
    rcases hax with rfl | rfl <;> decide

end Sg.Props
