import Verif.Proof.CmdLine
import Mathlib.Data.Rat.Floor
import Mathlib.Tactic.NormNum
/-
Properties C19-C23: command line arguments.
-/
namespace Sg.Props
open Sg.CmdLine

variable {D : Type}

/-- An argument looks like an option: a dash followed by something that is not a digit. -/
def LooksLikeOption (arg : List Char) : Prop := ∃ c rest, arg = '-' :: c :: rest ∧ c.isDigit = false

/-- The name has been registered with some type. -/
def Registered (p : Parser D) (name : List Char) : Prop :=
  (∃ v, find p.doubleArg name = some v) ∨ (∃ v, find p.intArg name = some v) ∨
  (∃ v, find p.stringArg name = some v) ∨ (∃ v, find p.boolArg name = some v)

/-- Bytes of a plain text. -/
def Plain (arg : List Char) : Prop := ∀ ch ∈ arg, ch.toNat < 128

theorem isOptionName_ok (arg : List Char) (h : Plain arg) : ∃ b, isOptionName arg = .ok b ∧ (b = true ↔ LooksLikeOption arg) := by
  unfold isOptionName LooksLikeOption
  match arg with
  | [] => exact ⟨false, rfl, by simp⟩
  | [a] => exact ⟨false, by simp, by simp⟩
  | a :: b :: rest =>
    by_cases ha : a = '-'
    · subst ha
      refine ⟨!b.isDigit, ?_, by simp⟩
      have hb : b.toNat < 128 := h b (by simp)
      simp [isdigit, hb, bind, Except.bind, pure, Except.pure]
    · exact ⟨false, by simp [ha], by simp [ha]⟩

theorem isValid_iff (p : Parser D) (name : List Char) : p.isValidOptName name = true ↔ Registered p name := by
  unfold Parser.isValidOptName Registered
  simp only [Bool.or_eq_true, Option.isSome_iff_exists, or_assoc]

theorem firstInvalid_ok (p : Parser D) : ∀ (args : List Str), (∀ arg ∈ args, Plain arg) →
    ∃ r, p.firstInvalid args = .ok r ∧ (r = none ↔ ∀ arg ∈ args, LooksLikeOption arg → Registered p arg)
  | [], _ => ⟨none, rfl, by simp⟩
  | arg :: args, h => by
    obtain ⟨b, hb, hb'⟩ := isOptionName_ok arg (h arg List.mem_cons_self)
    obtain ⟨r, hr, hr'⟩ := firstInvalid_ok p args fun x hx => h x (List.mem_cons_of_mem _ hx)
    unfold Parser.firstInvalid
    rw [hb]
    by_cases hbad : (b && !p.isValidOptName arg) = true
    · refine ⟨some arg, ?_, ?_⟩
      · show (if (b && !p.isValidOptName arg) = true then _ else _) = _
        rw [if_pos hbad]
      · simp only [reduceCtorEq, false_iff]
        intro hall
        rw [Bool.and_eq_true] at hbad
        have := (isValid_iff p arg).2 (hall arg List.mem_cons_self (hb'.1 hbad.1))
        rw [this] at hbad
        exact absurd hbad.2 (by decide)
    · refine ⟨r, ?_, ?_⟩
      · show (if (b && !p.isValidOptName arg) = true then _ else _) = _
        rw [if_neg hbad, hr]
      · rw [hr']
        refine ⟨fun hall x hx hl => ?_, fun hall x hx => hall x (List.mem_cons_of_mem _ hx)⟩
        rcases List.mem_cons.1 hx with rfl | hx
        · by_contra hn
          apply hbad
          rw [Bool.and_eq_true]
          refine ⟨hb'.2 hl, ?_⟩
          have : ¬ p.isValidOptName x = true := fun h => hn ((isValid_iff p x).1 h)
          simpa using this
        · exact hall x hx hl

/-- Every token after the name of a numeric option is a number that its type can hold. -/
def Convertible (c : Conv D) (p : Parser D) (args : List Str) : Prop :=
  (∀ key v, find p.doubleArg key = some v → ∀ i a, args[i]? = some key → args[i + 1]? = some a → ∃ d, c.atof a = .ok d) ∧
  (∀ key v, find p.intArg key = some v → ∀ i a, args[i]? = some key → args[i + 1]? = some a → ∃ d, c.atoi a = .ok d)

/-- The keys of a map are different. -/
def DistinctKeys {V : Type} (m : Map V) : Prop := (m.map Prod.fst).Nodup

theorem find_of_mem {V : Type} : ∀ {m : Map V}, DistinctKeys m → ∀ {e : Str × V}, e ∈ m → find m e.1 = some e.2
  | [], _, e, he => by cases he
  | x :: m, hd, e, he => by
    unfold DistinctKeys at hd
    rw [List.map_cons, List.nodup_cons] at hd
    rw [find_cons]
    rcases List.mem_cons.1 he with rfl | he
    · rw [if_pos rfl]
    · have : x.1 ≠ e.1 := fun h => hd.1 (h ▸ List.mem_map_of_mem he)
      rw [if_neg this]
      exact find_of_mem hd.2 he

theorem mem_of_find {V : Type} : ∀ {m : Map V} {k : Str} {v : V}, find m k = some v → (k, v) ∈ m
  | [], _, _, h => by cases h
  | x :: m, k, v, h => by
    rw [find_cons] at h
    split at h
    · rename_i hk
      cases h
      subst hk
      exact List.mem_cons_self
    · exact List.mem_cons_of_mem _ (mem_of_find h)

theorem update_total {V : Type} {m : Map V} (hd : DistinctKeys m) (conv : Str → Cxx V) (args : List Str) :
    (∃ m', update m (fun k v => scanValue conv k args v) = .ok m') ↔
      ∀ key v, find m key = some v → ∀ i a, args[i]? = some key → args[i + 1]? = some a → ∃ d, conv a = .ok d := by
  constructor
  · rintro ⟨m', h⟩ key v hv
    obtain ⟨w, hw, -⟩ := (find_update h key).1 v hv
    exact (scanValue_total conv key args v).1 ⟨w, hw⟩
  · intro h
    refine mapM_exists fun e he => ?_
    obtain ⟨w, hw⟩ := (scanValue_total conv e.1 args e.2).2 (h e.1 e.2 (find_of_mem hd he))
    exact ⟨(e.1, w), by dsimp only; rw [hw]; rfl⟩

theorem firstInvalid_exe (p : Parser D) (exe : Str) (args : List Str) :
    ({ p with execName := exe } : Parser D).firstInvalid args = p.firstInvalid args := by
  induction args with
  | nil => rfl
  | cons a args ih =>
    unfold Parser.firstInvalid
    rw [ih]
    rfl

/-- The parser with new values. -/
def parsed (p : Parser D) (exe : Str) (args : List Str) (d : Map D) (i : Map Int) (s : Map Str) : Parser D :=
  { p with execName := exe, doubleArg := d, intArg := i, stringArg := s, boolArg := p.boolArg.map fun e => (e.1, scanBool e.1 args e.2) }

theorem parse_split (c : Conv D) (p : Parser D) (exe : Str) (args : List Str) (r : Option Str)
    (hr : p.firstInvalid args = .ok r) :
    (r ≠ none → p.parse c (exe :: args) = .ok (false, { p with execName := exe })) ∧
    (r = none → ∀ x, p.parse c (exe :: args) = .ok x → ∃ d i s, update p.doubleArg (fun k v => scanValue c.atof k args v) = .ok d ∧
      update p.intArg (fun k v => scanValue c.atoi k args v) = .ok i ∧ update p.stringArg (fun k v => scanValue .ok k args v) = .ok s ∧
      x = (true, parsed p exe args d i s)) ∧
    (r = none → ∀ d i s, update p.doubleArg (fun k v => scanValue c.atof k args v) = .ok d →
      update p.intArg (fun k v => scanValue c.atoi k args v) = .ok i → update p.stringArg (fun k v => scanValue .ok k args v) = .ok s →
      p.parse c (exe :: args) = .ok (true, parsed p exe args d i s)) := by
  have hr' : ({ p with execName := exe } : Parser D).firstInvalid args = .ok r := by rw [firstInvalid_exe, hr]
  unfold Parser.parse
  simp only
  rw [hr']
  refine ⟨fun h => ?_, fun h => ?_, fun h => ?_⟩
  · cases r with
    | none => exact absurd rfl h
    | some a => rfl
  · subst h
    intro x hx
    obtain ⟨d, h1, hx⟩ := bind_ok (x := update p.doubleArg _) hx
    obtain ⟨i, h2, hx⟩ := bind_ok hx
    obtain ⟨s, h3, hx⟩ := bind_ok hx
    cases hx
    exact ⟨d, i, s, h1, h2, h3, rfl⟩
  · subst h
    intro d i s h1 h2 h3
    show (update p.doubleArg (fun k v => scanValue c.atof k args v) >>= _) = _
    rw [h1]
    show (update p.intArg (fun k v => scanValue c.atoi k args v) >>= _) = _
    rw [h2]
    show (update p.stringArg (fun k v => scanValue .ok k args v) >>= _) = _
    rw [h3]
    rfl

/-- C19: arguments are plain text.  If some argument looks like an option and is not registered then `parse` returns
false and changes no value.  Otherwise it returns true, unless a numeric option is given something its type cannot
hold, which is undefined. -/
theorem C19_unknown_rejected (c : Conv D) (p : Parser D) (exe : Str) (args : List Str) (hplain : ∀ arg ∈ args, Plain arg)
    (hd : DistinctKeys p.doubleArg ∧ DistinctKeys p.intArg ∧ DistinctKeys p.stringArg) :
    ((∃ arg ∈ args, LooksLikeOption arg ∧ ¬ Registered p arg) →
      ∃ p', p.parse c (exe :: args) = .ok (false, p') ∧ p'.doubleArg = p.doubleArg ∧ p'.intArg = p.intArg ∧
        p'.stringArg = p.stringArg ∧ p'.boolArg = p.boolArg) ∧
    ((∀ arg ∈ args, LooksLikeOption arg → Registered p arg) →
      (∀ b p', p.parse c (exe :: args) = .ok (b, p') → b = true) ∧
      (Convertible c p args ↔ ∃ p', p.parse c (exe :: args) = .ok (true, p'))) := by
  obtain ⟨r, hr, hr'⟩ := firstInvalid_ok p args hplain
  obtain ⟨h1, h2, h3⟩ := parse_split c p exe args r hr
  constructor
  · rintro ⟨arg, ha, hl, hn⟩
    exact ⟨_, h1 fun h => hn (hr'.1 h arg ha hl), rfl, rfl, rfl, rfl⟩
  · intro hall
    have hnone := hr'.2 hall
    refine ⟨fun b p' h => ?_, fun hc => ?_, ?_⟩
    · obtain ⟨d, i, s, -, -, -, e⟩ := h2 hnone _ h
      cases e
      rfl
    · obtain ⟨d, e1⟩ := (update_total hd.1 c.atof args).2 hc.1
      obtain ⟨i, e2⟩ := (update_total hd.2.1 c.atoi args).2 hc.2
      obtain ⟨s, e3⟩ := (update_total hd.2.2 .ok args).2 fun key v hv i a h1 h2 => ⟨a, rfl⟩
      exact ⟨_, h3 hnone d i s e1 e2 e3⟩
    · rintro ⟨p', h⟩
      obtain ⟨d, i, s, e1, e2, -, -⟩ := h2 hnone _ h
      exact ⟨(update_total hd.1 c.atof args).1 ⟨d, e1⟩, (update_total hd.2.1 c.atoi args).1 ⟨i, e2⟩⟩

/-- `a` is the token following the last occurrence of `key` that is followed by a token. -/
def LastValue (args : List Str) (key a : Str) : Prop :=
  ∃ i : Nat, args[i]? = some key ∧ args[i + 1]? = some a ∧
    ∀ j, i < j → j + 1 < args.length → args[j]? ≠ some key

/-- `key` never occurs followed by a token. -/
def NoValue (args : List Str) (key : Str) : Prop := ∀ i, i + 1 < args.length → args[i]? ≠ some key

theorem parse_true {c : Conv D} {p p' : Parser D} {exe : Str} {args : List Str}
    (h : p.parse c (exe :: args) = .ok (true, p')) :
    ∃ d i s, update p.doubleArg (fun k v => scanValue c.atof k args v) = .ok d ∧
      update p.intArg (fun k v => scanValue c.atoi k args v) = .ok i ∧ update p.stringArg (fun k v => scanValue .ok k args v) = .ok s ∧
      p' = parsed p exe args d i s := by
  cases hr : p.firstInvalid args with
  | error e =>
    exfalso
    have hr' : ({ p with execName := exe } : Parser D).firstInvalid args = .error e := by rw [firstInvalid_exe, hr]
    unfold Parser.parse at h
    simp only at h
    rw [hr'] at h
    cases h
  | ok r =>
    obtain ⟨h1, h2, -⟩ := parse_split c p exe args r hr
    by_cases hn : r = none
    · obtain ⟨d, i, s, e1, e2, e3, e⟩ := h2 hn _ h
      cases e
      exact ⟨d, i, s, e1, e2, e3, rfl⟩
    · rw [h1 hn] at h
      cases h

/-- C20 for doubles: a registered option ends up with the conversion of the token after its last occurrence. -/
theorem C20_last_wins_double (c : Conv D) (p p' : Parser D) (exe : Str) (args : List Str) (key : Str) (v : D)
    (h : p.parse c (exe :: args) = .ok (true, p')) (hreg : find p.doubleArg key = some v) :
    (∀ a, LastValue args key a → c.atof a = .ok (p'.getDouble c key)) ∧
    (NoValue args key → p'.getDouble c key = p.getDouble c key) := by
  obtain ⟨d, i, s, h1, -, -, rfl⟩ := parse_true h
  obtain ⟨w, hw, hf⟩ := (find_update h1 key).1 v hreg
  obtain ⟨a1, a2⟩ := scanValue_ok hw
  simp only [parsed, Parser.getDouble, hf, hreg, Option.getD_some]
  exact ⟨fun a ⟨i, b1, b2, b3⟩ => a2 i a b1 b2 b3, a1⟩

/-- C20 for ints. -/
theorem C20_last_wins_int (c : Conv D) (p p' : Parser D) (exe : Str) (args : List Str) (key : Str) (v : Int)
    (h : p.parse c (exe :: args) = .ok (true, p')) (hreg : find p.intArg key = some v) :
    (∀ a, LastValue args key a → c.atoi a = .ok (p'.getInt key)) ∧
    (NoValue args key → p'.getInt key = p.getInt key) := by
  obtain ⟨d, i, s, -, h1, -, rfl⟩ := parse_true h
  obtain ⟨w, hw, hf⟩ := (find_update h1 key).1 v hreg
  obtain ⟨a1, a2⟩ := scanValue_ok hw
  simp only [parsed, Parser.getInt, hf, hreg, Option.getD_some]
  exact ⟨fun a ⟨i, b1, b2, b3⟩ => a2 i a b1 b2 b3, a1⟩

/-- C20 for strings. -/
theorem C20_last_wins_string (c : Conv D) (p p' : Parser D) (exe : Str) (args : List Str) (key : Str) (v : Str)
    (h : p.parse c (exe :: args) = .ok (true, p')) (hreg : find p.stringArg key = some v) :
    (∀ a, LastValue args key a → p'.getString key = a) ∧
    (NoValue args key → p'.getString key = p.getString key) := by
  obtain ⟨d, i, s, -, -, h1, rfl⟩ := parse_true h
  obtain ⟨w, hw, hf⟩ := (find_update h1 key).1 v hreg
  obtain ⟨a1, a2⟩ := scanValue_ok hw
  simp only [parsed, Parser.getString, hf, hreg, Option.getD_some]
  refine ⟨fun a ⟨i, b1, b2, b3⟩ => ?_, a1⟩
  have := a2 i a b1 b2 b3
  cases this
  rfl

/-- C20: one of the two cases always applies. -/
theorem C20_cases (args : List Str) (key : Str) : NoValue args key ∨ ∃ a, LastValue args key a := by
  by_cases h : NoValue args key
  · exact .inl h
  · right
    unfold NoValue at h
    push_neg at h
    have hP : ∃ m, m ≤ args.length ∧ ∃ i, i + 1 < args.length ∧ args[i]? = some key ∧ args.length - i = m := by
      obtain ⟨i, h1, h2⟩ := h
      exact ⟨args.length - i, by omega, i, h1, h2, rfl⟩
    classical
    have hmin := Nat.find_spec hP
    obtain ⟨_, i, h1, h2, h3⟩ := hmin
    refine ⟨args[i + 1], i, h2, by simp [h1], fun j hj hj1 hjk => ?_⟩
    have := Nat.find_min hP (m := args.length - j) (by omega)
    exact this ⟨by omega, j, hj1, hjk, rfl⟩

/-- C21: a registered switch is negated once per occurrence of its name. -/
theorem C21_switch (c : Conv D) (p p' : Parser D) (exe : Str) (args : List Str) (key : Str) (v : Bool)
    (h : p.parse c (exe :: args) = .ok (true, p')) (hreg : find p.boolArg key = some v) :
    p'.getBool key = (p.getBool key ^^ decide (args.count key % 2 = 1)) := by
  obtain ⟨d, i, s, -, -, -, rfl⟩ := parse_true h
  have hd := find_map p.boolArg (fun k v => scanBool k args v) key
  rw [hreg] at hd
  simp only [parsed, Parser.getBool]
  rw [hd, hreg]
  simp [scanBool_eq]

/-- A call of one of the four `set` functions. -/
inductive SetCall (D : Type)
  | d (k : Str) (v : D) (help : Str)
  | i (k : Str) (v : Int) (help : Str)
  | s (k : Str) (v : Str) (help : Str)
  | b (k : Str) (v : Bool) (help : Str)

def SetCall.run (p : Parser D) : SetCall D → Parser D
  | .d k v h => p.setDouble k v h
  | .i k v h => p.setInt k v h
  | .s k v h => p.setString k v h
  | .b k v h => p.setBool k v h

/-- The parser after a sequence of `set` calls. -/
def configured (calls : List (SetCall D)) : Parser D := calls.foldl SetCall.run Parser.new

theorem configured_snoc (calls : List (SetCall D)) (x : SetCall D) :
    configured (calls ++ [x]) = SetCall.run (configured calls) x := by
  simp [configured, List.foldl_append]

/-- The last value given to `key` in a sequence of calls, by the projection `f` selecting one type. -/
def lastSet {V : Type} (f : SetCall D → Option (Str × V)) (calls : List (SetCall D)) (key : Str) : Option V :=
  (calls.reverse.filterMap f).findSome? fun e => if e.1 = key then some e.2 else none

theorem lastSet_snoc {V : Type} (f : SetCall D → Option (Str × V)) (calls : List (SetCall D)) (x : SetCall D)
    (key : Str) : lastSet f (calls ++ [x]) key =
      match f x with
      | some e => if e.1 = key then some e.2 else lastSet f calls key
      | none => lastSet f calls key := by
  unfold lastSet
  rw [List.reverse_append]
  simp only [List.reverse_singleton, List.singleton_append, List.filterMap_cons]
  cases f x with
  | none => rfl
  | some e => by_cases h : e.1 = key <;> simp [h]

/-- C22: after any sequence of `set` calls, `get` returns the last default given to the name with that type,
and the fixed sentinel when there is none. -/
theorem C22_get_after_set (c : Conv D) (calls : List (SetCall D)) (key : Str) :
    (configured calls).getDouble c key =
      (lastSet (fun | .d k v _ => some (k, v) | _ => none) calls key).getD c.lowest ∧
    (configured calls).getInt key =
      (lastSet (fun | .i k v _ => some (k, v) | _ => none) calls key).getD (-2147483647) ∧
    (configured calls).getString key =
      (lastSet (fun | .s k v _ => some (k, v) | _ => none) calls key).getD [] ∧
    (configured calls).getBool key =
      (lastSet (fun | .b k v _ => some (k, v) | _ => none) calls key).getD false := by
  have main : find (configured calls).doubleArg key
        = lastSet (fun | .d k v _ => some (k, v) | _ => none) calls key ∧
      find (configured calls).intArg key
        = lastSet (fun | .i k v _ => some (k, v) | _ => none) calls key ∧
      find (configured calls).stringArg key
        = lastSet (fun | .s k v _ => some (k, v) | _ => none) calls key ∧
      (find (configured calls).boolArg key).getD false
        = (lastSet (fun | .b k v _ => some (k, v) | _ => none) calls key).getD false := by
    induction calls using List.reverseRecOn with
    | nil =>
      refine ⟨rfl, rfl, rfl, ?_⟩
      show (find (Parser.new (D := D)).boolArg key).getD false = false
      have e : (Parser.new (D := D)).boolArg = [("--help".toList, false), ("-h".toList, false)] := rfl
      rw [e, find_cons, find_cons, find_nil]
      split
      · rfl
      · split <;> rfl
    | append_singleton calls x ih =>
      obtain ⟨h1, h2, h3, h4⟩ := ih
      simp only [lastSet_snoc, configured_snoc]
      have key' : ∀ {V : Type} (m : Map V) (k : Str) (v : V),
          find (assign m k v) key = if k = key then some v else find m key := by
        intro V m k v
        by_cases hk : k = key
        · subst hk; rw [if_pos rfl]; exact find_assign_self m k v
        · rw [if_neg hk]; exact find_assign_ne m k key v (fun e => hk e.symm)
      cases x with
      | d k v _ => exact ⟨by simp only [SetCall.run, Parser.setDouble, key', h1], h2, h3, h4⟩
      | i k v _ => exact ⟨h1, by simp only [SetCall.run, Parser.setInt, key', h2], h3, h4⟩
      | s k v _ => exact ⟨h1, h2, by simp only [SetCall.run, Parser.setString, key', h3], h4⟩
      | b k v _ =>
        refine ⟨h1, h2, h3, ?_⟩
        simp only [SetCall.run, Parser.setBool, key']
        by_cases hk : k = key
        · simp [hk]
        · simpa [hk] using h4
  obtain ⟨h1, h2, h3, h4⟩ := main
  exact ⟨by rw [Parser.getDouble, h1], by rw [Parser.getInt, h2], by rw [Parser.getString, h3], h4⟩

/-- C22: `-h` and `--help` are registered whatever is set afterwards. -/
theorem C22_help_always (calls : List (SetCall D)) :
    Registered (configured calls) "-h".toList ∧ Registered (configured calls) "--help".toList := by
  have key : ∀ (m : Map Bool) (k k' : Str) (v : Bool), (∃ w, find m k' = some w) → ∃ w, find (assign m k v) k' = some w := by
    intro m k k' v ⟨w, hw⟩
    by_cases h : k' = k
    · subst h; exact ⟨v, find_assign_self m k' v⟩
    · exact ⟨w, by rw [find_assign_ne m k k' v h]; exact hw⟩
  have main : (∃ w, find (configured calls).boolArg "-h".toList = some w) ∧
      ∃ w, find (configured calls).boolArg "--help".toList = some w := by
    induction calls using List.reverseRecOn with
    | nil => exact ⟨⟨false, rfl⟩, ⟨false, rfl⟩⟩
    | append_singleton calls x ih =>
      rw [configured_snoc]
      cases x with
      | d k v _ => exact ih
      | i k v _ => exact ih
      | s k v _ => exact ih
      | b k v _ => exact ⟨key _ _ _ _ ih.1, key _ _ _ _ ih.2⟩
  exact ⟨.inr (.inr (.inr main.1)), .inr (.inr (.inr main.2))⟩

/-- The pieces of a text: joined by commas they give the text, and none contains a comma. -/
def IsSplit (text : Str) (ps : List Str) : Prop :=
  ps ≠ [] ∧ List.intercalate [','] ps = text ∧ ∀ p ∈ ps, ',' ∉ p

theorem forall₂_append_left {α β : Type} {R : α → β → Prop} : ∀ {l l' : List α} {m : List β}, List.Forall₂ R (l ++ l') m →
    ∃ us ws, List.Forall₂ R l us ∧ List.Forall₂ R l' ws ∧ m = us ++ ws
  | [], _, m, h => ⟨[], m, .nil, h, rfl⟩
  | a :: l, l', m, h => by
    cases h with
    | cons h1 h2 =>
      obtain ⟨us, ws, e1, e2, rfl⟩ := forall₂_append_left h2
      exact ⟨_ :: us, ws, .cons h1 e1, e2, rfl⟩

/-- C23 for doubles: one element per comma separated piece, in order. -/
theorem C23_double_list (c : Conv D) (p : Parser D) (key text : Str) (ps : List Str)
    (hreg : find p.stringArg key = some text) (hne : text ≠ []) (hps : IsSplit text ps) (vs : List D) :
    p.getDoubles c key = .ok vs ↔ List.Forall₂ (fun a v => c.atof a = .ok v) ps vs := by
  obtain ⟨h0, h1, h2⟩ := hps
  obtain ⟨qs, last, rfl⟩ : ∃ qs last, ps = qs ++ [last] := ⟨_, _, (List.dropLast_append_getLast h0).symm⟩
  have := pieces_intercalate qs (fun q hq => h2 q (by simp [hq])) last (h2 last (by simp)) []
  simp only [List.nil_append, List.length_nil, h1] at this
  unfold Parser.getDoubles
  rw [hreg]
  dsimp only
  rw [if_pos (List.length_pos_of_ne_nil hne), this]
  constructor
  · intro h
    obtain ⟨us, e1, h⟩ := bind_ok h
    obtain ⟨u, e2, h⟩ := bind_ok h
    cases h
    exact List.rel_append (mapM_ok e1) (.cons e2 .nil)
  · intro h
    obtain ⟨us, ws, e1, e2, rfl⟩ := forall₂_append_left h
    cases e2 with
    | cons e3 e4 =>
      cases e4
      show (qs.mapM c.atof >>= _) = _
      rw [mapM_of_forall e1]
      show (c.atof last >>= _) = _
      rw [e3]
      rfl

/-- C23 for ints, what holds: all pieces but the last are converted with `atoi`, the last one with `atof`
followed by truncation.  Missing: the same conversion for all pieces, which is false, see
`C23_int_list_refuted`. -/
theorem C23_int_list_partial (c : Conv D) (p : Parser D) (key text : Str) (qs : List Str) (last : Str)
    (hreg : find p.stringArg key = some text) (hne : text ≠ []) (hps : IsSplit text (qs ++ [last])) (vs : List Int) :
    p.getInts c key = .ok vs ↔ ∃ us d v, List.Forall₂ (fun a v => c.atoi a = .ok v) qs us ∧ c.atof last = .ok d ∧
      c.toInt d = .ok v ∧ vs = us ++ [v] := by
  obtain ⟨h0, h1, h2⟩ := hps
  have := pieces_intercalate qs (fun q hq => h2 q (by simp [hq])) last (h2 last (by simp)) []
  simp only [List.nil_append, List.length_nil, h1] at this
  unfold Parser.getInts
  rw [hreg]
  dsimp only
  rw [if_pos (List.length_pos_of_ne_nil hne), this]
  constructor
  · intro h
    obtain ⟨us, e1, h⟩ := bind_ok h
    obtain ⟨d, e2, h⟩ := bind_ok h
    obtain ⟨v, e3, h⟩ := bind_ok h
    cases h
    exact ⟨us, d, v, mapM_ok e1, e2, e3, rfl⟩
  · rintro ⟨us, d, v, e1, e2, e3, rfl⟩
    show (qs.mapM c.atoi >>= _) = _
    rw [mapM_of_forall e1]
    show (c.atof last >>= _) = _
    rw [e2]
    show (c.toInt d >>= _) = _
    rw [e3]
    rfl

/-- C23: every text has its pieces. -/
theorem C23_split_exists (text : Str) : ∃ ps, IsSplit text ps := by
  induction text with
  | nil => exact ⟨[[]], by simp, by simp [List.intercalate], by simp⟩
  | cons ch text ih =>
    obtain ⟨ps, h0, h1, h2⟩ := ih
    by_cases hc : ch = ','
    · subst hc
      refine ⟨[] :: ps, by simp, ?_, ?_⟩
      · cases ps with
        | nil => exact absurd rfl h0
        | cons q qs => simp [List.intercalate, List.intersperse] at h1 ⊢; exact h1
      · intro p hp
        rcases List.mem_cons.1 hp with rfl | hp
        · simp
        · exact h2 p hp
    · cases ps with
      | nil => exact absurd rfl h0
      | cons q qs =>
        refine ⟨(ch :: q) :: qs, by simp, ?_, ?_⟩
        · cases qs with
          | nil => simp [List.intercalate] at h1 ⊢; exact h1
          | cons r rs => simp [List.intercalate, List.intersperse] at h1 ⊢; exact h1
        · intro p hp
          rcases List.mem_cons.1 hp with rfl | hp
          · simp only [List.mem_cons, not_or]
            exact ⟨fun e => hc e.symm, h2 q (by simp)⟩
          · exact h2 p (by simp [hp])

/-- Digits at the head of a text, as a number, and the rest. -/
def leadDigits (s : Str) : Nat × Str :=
  ((s.takeWhile Char.isDigit).foldl (fun n ch => 10 * n + (ch.toNat - 48)) 0, s.dropWhile Char.isDigit)

/-- The C library conversions on unsigned decimal texts with an optional exponent. -/
def decConv : Conv ℚ where
  atof s :=
    match (leadDigits s).2 with
    | 'e' :: r => .ok (((leadDigits s).1 : ℚ) * 10 ^ (leadDigits r).1)
    | _ => .ok ((leadDigits s).1 : ℚ)
  atoi s := if (leadDigits s).1 < 2147483648 then .ok ((leadDigits s).1 : Int) else .error .badCast
  toInt q := if |q| < 2147483648 then .ok ⌊q⌋ else .error .badCast
  lowest := -1

/-- C23 fails for ints: the same piece `1e3` reads 1 when another piece follows it and 1000 at the end. -/
theorem C23_int_list_refuted :
    ∃ (p : Parser ℚ) (key : Str), find p.stringArg key = some "1e3,1e3".toList ∧
      IsSplit "1e3,1e3".toList ["1e3".toList, "1e3".toList] ∧
      p.getInts decConv key = .ok [1, 1000] := by
  refine ⟨Parser.new.setString "-v".toList "1e3,1e3".toList [], "-v".toList, by decide, ⟨by decide, by decide, by decide⟩, ?_⟩
  rw [C23_int_list_partial decConv _ "-v".toList "1e3,1e3".toList ["1e3".toList] "1e3".toList (by decide) (by decide)
    ⟨by decide, by decide, by decide⟩]
  exact ⟨[1], 1000, 1000, .cons (by decide) .nil, by decide +kernel, by decide +kernel, rfl⟩

/-- C23, C20: numbers that do not fit are not detected, reading them is undefined. -/
theorem C23_range_refuted :
    (Parser.new.setString "-v".toList "1,5000000000".toList [] : Parser ℚ).getInts decConv "-v".toList = .error .badCast ∧
    (Parser.new.setInt "-n".toList 7 [] : Parser ℚ).parse decConv ["a.out".toList, "-n".toList, "5000000000".toList] =
      .error .badCast := by
  constructor
  · decide +kernel
  · rfl

/-- C19 needs plain text: with a byte of 128 or more after the dash `isdigit` is undefined. -/
theorem C19_plain_refuted : (Parser.new : Parser ℚ).parse decConv ["a.out".toList, "-é".toList] = .error .outOfBounds := rfl

/-! Hypotheses are met: a parser with an int option `-n` and a switch `-v`, arguments `-n 1 -v -n 2 -n`. -/
section examples
def exP : Parser ℚ := (Parser.new.setInt "-n".toList 7 []).setBool "-v".toList false []
def exArgs : List Str := ["-n".toList, "1".toList, "-v".toList, "-n".toList, "2".toList, "-n".toList]

example : ∃ p', exP.parse decConv ("a.out".toList :: exArgs) = .ok (true, p') ∧ p'.getInt "-n".toList = 2 ∧
    p'.getBool "-v".toList = true := ⟨_, rfl, by decide, by decide⟩

example : LastValue exArgs "-n".toList "2".toList :=
  ⟨3, by decide, by decide, by
    intro j h1 h2
    have : j = 4 := by simp [exArgs] at h2; omega
    subst this; decide⟩

example : find exP.intArg "-n".toList = some 7 ∧ find exP.boolArg "-v".toList = some false := by decide

example : ∃ p', exP.parse decConv ["a.out".toList, "-x".toList] = .ok (false, p') := ⟨_, rfl⟩

example : Convertible decConv exP exArgs ∧ (∀ arg ∈ exArgs, Plain arg) ∧ DistinctKeys exP.doubleArg ∧ DistinctKeys exP.intArg ∧
    DistinctKeys exP.stringArg := by
  refine ⟨⟨fun key v h => (by cases h), fun key v h i a hi ha => ?_⟩, by unfold Plain; decide, by unfold DistinctKeys; decide,
    by unfold DistinctKeys; decide, by unfold DistinctKeys; decide⟩
  have hk : key = "-n".toList := by
    have e : exP.intArg = [("-n".toList, 7)] := rfl
    rw [e, find_cons] at h
    split at h
    · rename_i h'; exact h'.symm
    · cases h
  subst hk
  match i with
  | 0 => cases ha; exact ⟨1, by decide⟩
  | 1 => cases hi
  | 2 => cases hi
  | 3 => cases ha; exact ⟨2, by decide⟩
  | 4 => cases hi
  | n + 5 => simp [exArgs] at ha

end examples

end Sg.Props
