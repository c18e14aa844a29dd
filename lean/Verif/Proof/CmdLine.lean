import Verif.Model.CmdLine
import Mathlib.Data.List.Basic
import Mathlib.Data.List.Induction
import Mathlib.Tactic.Ring
namespace Sg.CmdLine

theorem find_nil {V : Type} (k : Str) : find ([] : Map V) k = none := rfl

theorem find_cons {V : Type} (e : Str × V) (m : Map V) (k : Str) : find (e :: m) k = if e.1 = k then some e.2 else find m k := by
  unfold find
  rw [List.find?_cons]
  by_cases h : e.1 = k <;> simp [h]

theorem find_assign_self {V : Type} (m : Map V) (k : Str) (v : V) : find (assign m k v) k = some v := by
  induction m with
  | nil => simp [assign, find]
  | cons e m ih =>
    unfold assign
    split
    · simp [find_cons]
    · rename_i h
      split
      · simp [find_cons]
      · rw [find_cons, if_neg h, ih]

theorem find_assign_ne {V : Type} (m : Map V) (k k' : Str) (v : V) (hk : k' ≠ k) :
    find (assign m k v) k' = find m k' := by
  induction m with
  | nil => simp [assign, find, hk.symm]
  | cons e m ih =>
    unfold assign
    split
    · rename_i h
      subst h
      simp [find_cons, hk.symm]
    · split
      · rw [find_cons, if_neg (Ne.symm hk)]
      · rw [find_cons, find_cons, ih]

theorem find_map {V W : Type} (m : Map V) (f : Str → V → W) (k : Str) :
    find (m.map fun e => (e.1, f e.1 e.2)) k = (find m k).map (f k) := by
  induction m with
  | nil => simp [find]
  | cons e m ih =>
    rw [List.map_cons, find_cons, find_cons, ih]
    by_cases h : e.1 = k <;> simp [h]

theorem bind_ok {α β : Type} {x : Cxx α} {f : α → Cxx β} {b : β} (h : x >>= f = .ok b) : ∃ a, x = .ok a ∧ f a = .ok b := by
  cases x with
  | error e => cases h
  | ok a => exact ⟨a, rfl, h⟩

/-- `mapM` over a list, when it succeeds. -/
theorem mapM_ok {α β : Type} {f : α → Cxx β} : ∀ {l : List α} {l' : List β}, l.mapM f = .ok l' →
    List.Forall₂ (fun a b => f a = .ok b) l l'
  | [], l', h => by cases h; exact .nil
  | a :: l, l', h => by
    rw [List.mapM_cons] at h
    obtain ⟨b, h1, h2⟩ := bind_ok h
    obtain ⟨bs, h3, h4⟩ := bind_ok h2
    cases h4
    exact .cons h1 (mapM_ok h3)

theorem mapM_of_forall {α β : Type} {f : α → Cxx β} : ∀ {l : List α} {l' : List β},
    List.Forall₂ (fun a b => f a = .ok b) l l' → l.mapM f = .ok l'
  | _, _, .nil => rfl
  | _, _, .cons h1 h2 => by
    rw [List.mapM_cons, h1, mapM_of_forall h2]; rfl

theorem mapM_exists {α β : Type} {f : α → Cxx β} : ∀ {l : List α}, (∀ a ∈ l, ∃ b, f a = .ok b) → ∃ l', l.mapM f = .ok l'
  | [], _ => ⟨[], rfl⟩
  | a :: l, h => by
    obtain ⟨b, hb⟩ := h a List.mem_cons_self
    obtain ⟨bs, hbs⟩ := mapM_exists (l := l) fun x hx => h x (List.mem_cons_of_mem _ hx)
    exact ⟨b :: bs, by rw [List.mapM_cons, hb, hbs]; rfl⟩

theorem find_update {V : Type} {m m' : Map V} {f : Str → V → Cxx V} (h : update m f = .ok m') (k : Str) :
    (∀ v, find m k = some v → ∃ w, f k v = .ok w ∧ find m' k = some w) ∧ (find m k = none → find m' k = none) := by
  have h' := mapM_ok h
  clear h
  induction h' with
  | nil =>
    refine ⟨fun v hv => ?_, fun _ => rfl⟩
    cases hv
  | @cons e e' l l' h1 h2 ih =>
    obtain ⟨w, h3, h4⟩ := bind_ok h1
    cases h4
    simp only [find_cons]
    by_cases hk : e.1 = k
    · subst hk
      refine ⟨fun v hv => ?_, fun h => ?_⟩
      · rw [if_pos rfl] at hv
        cases hv
        exact ⟨w, h3, by rw [if_pos rfl]⟩
      · rw [if_pos rfl] at h
        cases h
    · simp only [hk, if_false]
      exact ih

theorem update_keys {V : Type} {m m' : Map V} {f : Str → V → Cxx V} (h : update m f = .ok m') :
    m'.map Prod.fst = m.map Prod.fst := by
  have h' := mapM_ok h
  clear h
  induction h' with
  | nil => rfl
  | cons h1 h2 ih =>
    obtain ⟨w, h3, h4⟩ := bind_ok h1
    cases h4
    simp [ih]

theorem scanStep_ok {V : Type} {conv : Str → Cxx V} {k : Str} {s s' : V × Bool} {a : Str} (h : scanStep conv k s a = .ok s') :
    ∃ w, (if s.2 then conv a else .ok s.1) = .ok w ∧ s' = (w, decide (k = a)) := by
  unfold scanStep at h
  split at h
  · rename_i w hw
    cases h
    exact ⟨w, hw, rfl⟩
  · cases h

/-- State of the scanning loop. -/
def scanState {V : Type} (conv : Str → Cxx V) (optKey : Str) (args : List Str) (v : V) : Cxx (V × Bool) :=
  args.foldlM (scanStep conv optKey) (v, false)

theorem scanState_snoc {V : Type} (conv : Str → Cxx V) (k : Str) (args : List Str) (a : Str) (v : V) :
    scanState conv k (args ++ [a]) v = (scanState conv k args v >>= fun s => scanStep conv k s a) := by
  unfold scanState
  rw [List.foldlM_append]
  congr 1
  funext s
  simp

theorem scanState_flag {V : Type} {conv : Str → Cxx V} {k : Str} {args : List Str} {v : V} {s : V × Bool}
    (h : scanState conv k args v = .ok s) : s.2 = true ↔ args.getLast? = some k := by
  induction args using List.reverseRecOn with
  | nil => cases h; simp
  | append_singleton args a _ =>
    rw [scanState_snoc] at h
    obtain ⟨s1, -, h2⟩ := bind_ok h
    obtain ⟨w, -, h4⟩ := scanStep_ok h2
    cases h4
    simp [eq_comm]

theorem getLast_iff (args : List Str) (k : Str) : args.getLast? = some k ↔ 0 < args.length ∧ args[args.length - 1]? = some k := by
  rw [List.getLast?_eq_getElem?]
  constructor
  · intro h
    refine ⟨?_, h⟩
    rcases args with _ | ⟨_, _⟩
    · simp at h
    · simp
  · exact fun h => h.2

/-- What a scan that succeeds returns. -/
theorem scanState_ok {V : Type} {conv : Str → Cxx V} {k : Str} {args : List Str} {v : V} {s : V × Bool}
    (h : scanState conv k args v = .ok s) :
    ((∀ i, i + 1 < args.length → args[i]? ≠ some k) → s.1 = v) ∧
    ∀ i a, args[i]? = some k → args[i + 1]? = some a → (∀ j, i < j → j + 1 < args.length → args[j]? ≠ some k) → conv a = .ok s.1 := by
  induction args using List.reverseRecOn generalizing s with
  | nil => cases h; exact ⟨fun _ => rfl, fun i a h => by simp at h⟩
  | append_singleton args b ih =>
    rw [scanState_snoc] at h
    obtain ⟨s1, h1, h2⟩ := bind_ok h
    obtain ⟨w, h3, h4⟩ := scanStep_ok h2
    cases h4
    have hfl := scanState_flag h1
    obtain ⟨ih1, ih2⟩ := ih h1
    rw [getLast_iff] at hfl
    have left : ∀ i, i < args.length → (args ++ [b])[i]? = args[i]? := fun i hi => List.getElem?_append_left hi
    constructor
    · intro hn
      have hf : ¬ s1.2 = true := by
        rw [hfl]
        rintro ⟨hp, hl⟩
        refine hn (args.length - 1) (by simp; omega) ?_
        rw [left _ (by omega)]; exact hl
      rw [if_neg hf] at h3
      cases h3
      refine ih1 fun i hi hk => hn i (by simp; omega) ?_
      rw [left _ (by omega)]; exact hk
    · intro i a hk ha hlast
      have hi1 : i + 1 < (args ++ [b]).length := by
        by_contra hc
        rw [List.getElem?_eq_none (by omega)] at ha; cases ha
      simp only [List.length_append, List.length_singleton] at hi1
      rw [left i (by omega)] at hk
      rcases Nat.lt_or_ge (i + 1) args.length with hlt | hge
      · have hf : ¬ s1.2 = true := by
          rw [hfl]
          rintro ⟨hp, hl⟩
          refine hlast (args.length - 1) (by omega) (by simp; omega) ?_
          rw [left _ (by omega)]; exact hl
        rw [if_neg hf] at h3
        cases h3
        rw [left _ hlt] at ha
        exact ih2 i a hk ha fun j hj hj' hkj => hlast j hj (by simp; omega) (by rw [left _ (by omega)]; exact hkj)
      · have hlen : args.length = i + 1 := by omega
        have hf : s1.2 = true := by
          rw [hfl, hlen]
          exact ⟨by omega, hk⟩
        rw [if_pos hf] at h3
        rw [← hlen] at ha
        simp at ha
        rw [← ha]; exact h3

/-- A scan succeeds if all the tokens that are values can be converted, and only then. -/
theorem scanState_total {V : Type} (conv : Str → Cxx V) (k : Str) (args : List Str) (v : V) :
    (∃ s, scanState conv k args v = .ok s) ↔ ∀ i a, args[i]? = some k → args[i + 1]? = some a → ∃ w, conv a = .ok w := by
  induction args using List.reverseRecOn with
  | nil => exact ⟨fun _ i a h => by simp at h, fun _ => ⟨(v, false), rfl⟩⟩
  | append_singleton args b ih =>
    have left : ∀ i, i < args.length → (args ++ [b])[i]? = args[i]? := fun i hi => List.getElem?_append_left hi
    rw [scanState_snoc]
    constructor
    · rintro ⟨s, h⟩ i a hk ha
      obtain ⟨s1, h1, h2⟩ := bind_ok h
      obtain ⟨w, h3, h4⟩ := scanStep_ok h2
      have hi1 : i + 1 < (args ++ [b]).length := by
        by_contra hc
        rw [List.getElem?_eq_none (by omega)] at ha; cases ha
      simp only [List.length_append, List.length_singleton] at hi1
      rw [left i (by omega)] at hk
      rcases Nat.lt_or_ge (i + 1) args.length with hlt | hge
      · rw [left _ hlt] at ha
        exact ih.1 ⟨s1, h1⟩ i a hk ha
      · have hlen : args.length = i + 1 := by omega
        have hf : s1.2 = true := by
          rw [scanState_flag h1, getLast_iff, hlen]
          exact ⟨by omega, hk⟩
        rw [if_pos hf] at h3
        rw [← hlen] at ha
        simp at ha
        exact ⟨w, by rw [← ha]; exact h3⟩
    · intro h
      obtain ⟨s1, h1⟩ := ih.2 fun i a hk ha => by
        have : i + 1 < args.length := by
          by_contra hc
          rw [List.getElem?_eq_none (by omega)] at ha; cases ha
        exact h i a (by rw [left _ (by omega)]; exact hk) (by rw [left _ this]; exact ha)
      rw [h1]
      by_cases hf : s1.2 = true
      · obtain ⟨hp, hl⟩ := (getLast_iff _ _).1 ((scanState_flag h1).1 hf)
        obtain ⟨w, hw⟩ := h (args.length - 1) b (by rw [left _ (by omega)]; exact hl)
          (by rw [show args.length - 1 + 1 = args.length by omega]; simp)
        refine ⟨(w, decide (k = b)), ?_⟩
        show scanStep conv k s1 b = _
        unfold scanStep
        rw [if_pos hf, hw]
      · refine ⟨(s1.1, decide (k = b)), ?_⟩
        show scanStep conv k s1 b = _
        unfold scanStep
        rw [if_neg hf]

theorem scanValue_ok {V : Type} {conv : Str → Cxx V} {k : Str} {args : List Str} {v w : V}
    (h : scanValue conv k args v = .ok w) :
    ((∀ i, i + 1 < args.length → args[i]? ≠ some k) → w = v) ∧
    ∀ i a, args[i]? = some k → args[i + 1]? = some a → (∀ j, i < j → j + 1 < args.length → args[j]? ≠ some k) → conv a = .ok w := by
  obtain ⟨s, h1, h2⟩ := bind_ok h
  cases h2
  exact scanState_ok h1

theorem scanValue_total {V : Type} (conv : Str → Cxx V) (k : Str) (args : List Str) (v : V) :
    (∃ w, scanValue conv k args v = .ok w) ↔ ∀ i a, args[i]? = some k → args[i + 1]? = some a → ∃ w, conv a = .ok w := by
  rw [← scanState_total conv k args v]
  constructor
  · rintro ⟨w, h⟩
    obtain ⟨s, h1, -⟩ := bind_ok h
    exact ⟨s, h1⟩
  · rintro ⟨s, h⟩
    exact ⟨s.1, by
      show (scanState conv k args v >>= fun s => pure s.1) = _
      rw [h]; rfl⟩

theorem scanBool_eq (k : Str) (args : List Str) (v : Bool) :
    scanBool k args v = (v ^^ decide ((args.count k) % 2 = 1)) := by
  unfold scanBool
  induction args generalizing v with
  | nil => simp
  | cons a args ih =>
    rw [List.foldl_cons, ih, List.count_cons]
    by_cases h : a = k
    · subst h
      simp only [if_true, beq_self_eq_true]
      rcases Nat.mod_two_eq_zero_or_one (args.count a) with h2 | h2
      · have : (args.count a + 1) % 2 = 1 := by omega
        simp [h2, this]
      · have : (args.count a + 1) % 2 = 0 := by omega
        simp [h2, this]
    · have : ¬ (a == k) = true := by simpa using h
      simp [h]

theorem findIdx_comma (p rest : Str) (hp : ',' ∉ p) :
    (p ++ ',' :: rest).findIdx? (· = ',') = some p.length := by
  induction p with
  | nil => simp [List.findIdx?_cons]
  | cons a p ih =>
    have ha : ¬ a = ',' := fun h => hp (by simp [h])
    have hp' : ',' ∉ p := fun h => hp (by simp [h])
    simp only [List.cons_append, List.findIdx?_cons, ha, decide_false]
    rw [ih hp']; rfl

theorem findIdx_nocomma (p : Str) (hp : ',' ∉ p) : p.findIdx? (· = ',') = none := by
  rw [List.findIdx?_eq_none_iff]
  intro x hx
  simp only [decide_eq_false_iff_not]
  rintro rfl; exact hp hx

theorem pieces_cons (pre p rest : Str) (hp : ',' ∉ p) :
    pieces (pre ++ (p ++ ',' :: rest)) pre.length =
      (p :: (pieces (pre ++ (p ++ ',' :: rest)) (pre.length + p.length + 1)).1,
       (pieces (pre ++ (p ++ ',' :: rest)) (pre.length + p.length + 1)).2) := by
  have hf : findComma (pre ++ (p ++ ',' :: rest)) pre.length = some (pre.length + p.length) := by
    unfold findComma
    rw [List.drop_left, findIdx_comma p rest hp]; rfl
  rw [pieces, hf]
  dsimp only
  rw [dif_pos (by simp)]
  simp [substr]

theorem pieces_last (pre p : Str) (hp : ',' ∉ p) : pieces (pre ++ p) pre.length = ([], p) := by
  have hf : findComma (pre ++ p) pre.length = none := by
    unfold findComma
    rw [List.drop_left, findIdx_nocomma p hp]; rfl
  rw [pieces, hf]
  simp

theorem pieces_intercalate (ps : List Str) (hps : ∀ p ∈ ps, ',' ∉ p) (last : Str) (hl : ',' ∉ last) (pre : Str) :
    pieces (pre ++ List.intercalate [','] (ps ++ [last])) pre.length = (ps, last) := by
  induction ps generalizing pre with
  | nil => simpa [List.intercalate] using pieces_last pre last hl
  | cons p ps ih =>
    have hi : List.intercalate [','] ((p :: ps) ++ [last]) =
        p ++ ',' :: List.intercalate [','] (ps ++ [last]) := by
      cases ps <;> simp [List.intercalate, List.intersperse]
    have := ih (fun q hq => hps q (by simp [hq])) (pre ++ p ++ [','])
    rw [hi, pieces_cons pre p _ (hps p (by simp))]
    have e : pre ++ (p ++ ',' :: List.intercalate [','] (ps ++ [last])) =
        pre ++ p ++ [','] ++ List.intercalate [','] (ps ++ [last]) := by simp
    have e2 : pre.length + p.length + 1 = (pre ++ p ++ [',']).length := by simp; omega
    rw [e, e2, this]

end Sg.CmdLine
