import Mathlib.Data.List.Lex
import Mathlib.Data.Char
import Verif.Props.CmdLine
/-
Property C87: the help text of the command line parser, after any history of calls.
-/
namespace Sg.Props
open Sg.CmdLine

variable {D : Type}

/-- A call of a member function that changes the parser. -/
inductive ParserCall (D : Type)
  | double (name : Str) (v : D) (help : Str)
  | int (name : Str) (v : Int) (help : Str)
  | string (name : Str) (v : Str) (help : Str)
  | bool (name : Str) (v : Bool) (help : Str)
  | purpose (s : Str)
  | footnote (s : Str)
  | parse (argv : List Str)

def ParserCall.run (c : Conv D) (p : Parser D) : ParserCall D → Cxx (Parser D)
  | .double k v h => .ok (p.setDouble k v h)
  | .int k v h => .ok (p.setInt k v h)
  | .string k v h => .ok (p.setString k v h)
  | .bool k v h => .ok (p.setBool k v h)
  | .purpose s => .ok (p.setPurpose s)
  | .footnote s => .ok (p.addFootnote s)
  | .parse argv => do
    let r ← p.parse c argv
    return r.2

/-- A history of calls on a new parser. -/
def runParser (c : Conv D) (calls : List (ParserCall D)) : Cxx (Parser D) := calls.foldlM (ParserCall.run c) Parser.new

/-- The last text given to a name. -/
def lastHelp (sel : ParserCall D → Option (Str × Str)) (calls : List (ParserCall D)) (name : Str) : Option Str :=
  (calls.reverse.filterMap sel).findSome? fun e => if e.1 = name then some e.2 else none

def selDouble : ParserCall D → Option (Str × Str) | .double k _ h => some (k, h) | _ => none
def selInt : ParserCall D → Option (Str × Str) | .int k _ h => some (k, h) | _ => none
def selString : ParserCall D → Option (Str × Str) | .string k _ h => some (k, h) | _ => none
def selBool : ParserCall D → Option (Str × Str) | .bool k _ h => some (k, h) | _ => none

/-- What the constructor registers. -/
def builtin : List (ParserCall D) :=
  [.bool "-h".toList false "Print help.".toList, .bool "--help".toList false "Print help.".toList]

theorem lastHelp_snoc (f : ParserCall D → Option (Str × Str)) (calls : List (ParserCall D)) (x : ParserCall D)
    (key : Str) : lastHelp f (calls ++ [x]) key =
      match f x with
      | some e => if e.1 = key then some e.2 else lastHelp f calls key
      | none => lastHelp f calls key := by
  unfold lastHelp
  rw [List.reverse_append]
  simp only [List.reverse_singleton, List.singleton_append, List.filterMap_cons]
  cases f x with
  | none => rfl
  | some e => by_cases h : e.1 = key <;> simp [h]

/-- Keys in order, texts as given, a text for every option. -/
structure TableOk {V : Type} (m : Map V) (helps : Map Str) (f : Str → Option Str) : Prop where
  sorted : (m.map Prod.fst).Pairwise (· < ·)
  texts : ∀ k, find helps k = f k
  dom : ∀ k, (find m k).isSome = (find helps k).isSome

theorem assign_keys {V : Type} (k : Str) (v : V) : ∀ (m : Map V) (x : Str), x ∈ (assign m k v).map Prod.fst → x = k ∨ x ∈ m.map Prod.fst
  | [], x, h => by simp [assign] at h; exact Or.inl h
  | e :: m, x, h => by
    unfold assign at h
    split at h
    · rename_i he
      subst he
      simpa using h
    · split at h
      · simpa using h
      · simp only [List.map_cons, List.mem_cons] at h ⊢
        rcases h with h | h
        · exact Or.inr (Or.inl h)
        · rcases assign_keys k v m x h with h | h
          · exact Or.inl h
          · exact Or.inr (Or.inr h)

theorem assign_sorted {V : Type} (k : Str) (v : V) : ∀ (m : Map V), (m.map Prod.fst).Pairwise (· < ·) →
    ((assign m k v).map Prod.fst).Pairwise (· < ·)
  | [], _ => by simp [assign]
  | e :: m, h => by
    rw [List.map_cons, List.pairwise_cons] at h
    unfold assign
    split
    · rename_i he
      subst he
      rw [List.map_cons, List.pairwise_cons]
      exact h
    · rename_i hne
      split
      · rename_i hlt
        rw [List.map_cons, List.pairwise_cons, List.map_cons, List.pairwise_cons]
        refine ⟨?_, h⟩
        intro x hx
        rcases List.mem_cons.1 hx with rfl | hx
        · exact hlt
        · exact lt_trans hlt (h.1 x hx)
      · rename_i hnlt
        rw [List.map_cons, List.pairwise_cons]
        refine ⟨?_, assign_sorted k v m h.2⟩
        intro x hx
        rcases assign_keys k v m x hx with rfl | hx
        · exact lt_of_le_of_ne (not_lt.mp hnlt) hne
        · exact h.1 x hx

theorem find_assign {V : Type} (m : Map V) (k k' : Str) (v : V) : find (assign m k v) k' = if k = k' then some v else find m k' := by
  by_cases h : k = k'
  · subst h; rw [if_pos rfl, find_assign_self]
  · rw [if_neg h, find_assign_ne _ _ _ _ (Ne.symm h)]

theorem TableOk.assign {V : Type} {m : Map V} {helps : Map Str} {f : Str → Option Str} (h : TableOk m helps f) (k : Str) (v : V)
    (t : Str) : TableOk (CmdLine.assign m k v) (CmdLine.assign helps k t) (fun key => if k = key then some t else f key) := by
  refine ⟨assign_sorted k v m h.sorted, fun key => ?_, fun key => ?_⟩
  · rw [find_assign, h.texts]
  · rw [find_assign, find_assign]
    split
    · rfl
    · exact h.dom key

theorem TableOk.keys {V : Type} {m m' : Map V} {helps : Map Str} {f : Str → Option Str} (h : TableOk m helps f)
    (hk : m'.map Prod.fst = m.map Prod.fst) (hf : ∀ k, (find m' k).isSome = (find m k).isSome) : TableOk m' helps f :=
  ⟨by rw [hk]; exact h.sorted, h.texts, fun k => by rw [hf, h.dom]⟩

theorem update_dom {V : Type} {m m' : Map V} {f : Str → V → Cxx V} (h : update m f = .ok m') (k : Str) :
    (find m' k).isSome = (find m k).isSome := by
  obtain ⟨h1, h2⟩ := find_update h k
  cases hm : find m k with
  | none => rw [h2 hm]
  | some v =>
    obtain ⟨w, -, hw⟩ := h1 v hm
    rw [hw]; rfl

/-- All the tables of a parser. -/
structure ParserOk (p : Parser D) (calls : List (ParserCall D)) : Prop where
  double : TableOk p.doubleArg p.doubleArgHelp (lastHelp selDouble calls)
  int : TableOk p.intArg p.intArgHelp (lastHelp selInt calls)
  string : TableOk p.stringArg p.stringArgHelp (lastHelp selString calls)
  bool : TableOk p.boolArg p.boolArgHelp (lastHelp selBool calls)

theorem parser_step {c : Conv D} {p p' : Parser D} {calls : List (ParserCall D)} (h : ParserOk p calls) (x : ParserCall D)
    (hx : x.run c p = .ok p') : ParserOk p' (calls ++ [x]) := by
  have same : ∀ {V : Type} {m : Map V} {t : Map Str} {sel : ParserCall D → Option (Str × Str)}, sel x = none →
      TableOk m t (lastHelp sel calls) → TableOk m t (lastHelp sel (calls ++ [x])) := by
    intro V m t sel hs ht
    have : lastHelp sel (calls ++ [x]) = lastHelp sel calls := by
      funext key
      rw [lastHelp_snoc, hs]
    rw [this]; exact ht
  have new : ∀ {V : Type} {m : Map V} {t : Map Str} {sel : ParserCall D → Option (Str × Str)} {k e : Str} (v : V), sel x = some (k, e) →
      TableOk m t (lastHelp sel calls) → TableOk (assign m k v) (assign t k e) (lastHelp sel (calls ++ [x])) := by
    intro V m t sel k e v hs ht
    have : lastHelp sel (calls ++ [x]) = fun key => if k = key then some e else lastHelp sel calls key := by
      funext key
      rw [lastHelp_snoc, hs]
    rw [this]; exact ht.assign k v e
  cases x with
  | double k v t => cases hx; exact ⟨new v rfl h.double, same rfl h.int, same rfl h.string, same rfl h.bool⟩
  | int k v t => cases hx; exact ⟨same rfl h.double, new v rfl h.int, same rfl h.string, same rfl h.bool⟩
  | string k v t => cases hx; exact ⟨same rfl h.double, same rfl h.int, new v rfl h.string, same rfl h.bool⟩
  | bool k v t => cases hx; exact ⟨same rfl h.double, same rfl h.int, same rfl h.string, new v rfl h.bool⟩
  | purpose s => cases hx; exact ⟨same rfl h.double, same rfl h.int, same rfl h.string, same rfl h.bool⟩
  | footnote s => cases hx; exact ⟨same rfl h.double, same rfl h.int, same rfl h.string, same rfl h.bool⟩
  | parse argv =>
    obtain ⟨⟨b, q⟩, hp, hq⟩ := bind_ok hx
    cases hq
    match argv, hp with
    | [], hp => cases hp
    | exe :: args, hp =>
      cases b with
      | false =>
        cases hr : p.firstInvalid args with
        | error e =>
          exfalso
          have hr' : ({ p with execName := exe } : Parser D).firstInvalid args = .error e := by rw [firstInvalid_exe, hr]
          unfold Parser.parse at hp
          simp only at hp
          rw [hr'] at hp
          cases hp
        | ok r =>
          obtain ⟨h1, h2, -⟩ := parse_split c p exe args r hr
          by_cases hn : r = none
          · obtain ⟨d, i, s, e1, e2, e3, e⟩ := h2 hn _ hp
            cases e
          · rw [h1 hn] at hp
            cases hp
            exact ⟨same rfl h.double, same rfl h.int, same rfl h.string, same rfl h.bool⟩
      | true =>
        obtain ⟨d, i, s, h1, h2, h3, rfl⟩ := parse_true hp
        refine ⟨same rfl (h.double.keys (update_keys h1) (update_dom h1)), same rfl (h.int.keys (update_keys h2) (update_dom h2)),
          same rfl (h.string.keys (update_keys h3) (update_dom h3)), same rfl (h.bool.keys ?_ ?_)⟩
        · simp [parsed]
        · intro k
          simp only [parsed]
          rw [find_map p.boolArg (fun k v => scanBool k args v) k]
          cases find p.boolArg k <;> rfl

theorem parser_ok {c : Conv D} {calls : List (ParserCall D)} {p : Parser D} (h : runParser c calls = .ok p) :
    ParserOk p (builtin ++ calls) := by
  induction calls using List.reverseRecOn generalizing p with
  | nil =>
    cases h
    refine ⟨⟨?_, ?_, ?_⟩, ⟨?_, ?_, ?_⟩, ⟨?_, ?_, ?_⟩, ⟨?_, ?_, ?_⟩⟩
    · exact .nil
    · intro k; rfl
    · intro k; rfl
    · exact .nil
    · intro k; rfl
    · intro k; rfl
    · exact .nil
    · intro k; rfl
    · intro k; rfl
    · show List.Pairwise (· < ·) ["--help".toList, "-h".toList]
      decide
    · intro k
      have e : (Parser.new (D := D)).boolArgHelp = [("--help".toList, "Print help.".toList), ("-h".toList, "Print help.".toList)] := rfl
      rw [e, find_cons, find_cons, find_nil]
      have e' : (builtin ++ [] : List (ParserCall D)) = ([] ++ [.bool "-h".toList false "Print help.".toList]) ++
          [.bool "--help".toList false "Print help.".toList] := rfl
      rw [e', lastHelp_snoc, lastHelp_snoc]
      rfl
    · intro k
      have e : (Parser.new (D := D)).boolArgHelp = [("--help".toList, "Print help.".toList), ("-h".toList, "Print help.".toList)] := rfl
      have e' : (Parser.new (D := D)).boolArg = [("--help".toList, false), ("-h".toList, false)] := rfl
      rw [e, e', find_cons, find_cons, find_nil, find_cons, find_cons, find_nil]
      dsimp only
      split
      · rfl
      · split <;> rfl
  | append_singleton calls x ih =>
    unfold runParser at h
    rw [List.foldlM_append] at h
    obtain ⟨q, h1, h2⟩ := bind_ok h
    rw [← List.append_assoc]
    refine parser_step (ih h1) x (c := c) ?_
    simpa using h2

theorem helpLines_ok {V : Type} {m : Map V} {helps : Map Str} {f : Str → Option Str} (h : TableOk m helps f)
    (item : Str → Str → V → HelpItem D) :
    ∃ L, helpLines m helps item = .ok L ∧ (∀ x, x ∈ L ↔ ∃ name t v, x = item name t v ∧ f name = some t ∧ find m name = some v) ∧
      List.Forall₂ (fun k x => ∃ t v, x = item k t v) (m.map Prod.fst) L := by
  have hd : DistinctKeys m := h.sorted.imp (fun hab => hab.ne)
  obtain ⟨L, hL⟩ : ∃ L, helpLines m helps item = .ok L := by
    refine mapM_exists fun e he => ?_
    have h1 : (find helps e.1).isSome := by
      rw [← h.dom, find_of_mem hd he]; rfl
    obtain ⟨t, ht⟩ := Option.isSome_iff_exists.1 h1
    refine ⟨item e.1 t e.2, ?_⟩
    unfold helpOf
    rw [ht]
    rfl
  refine ⟨L, hL, ?_, ?_⟩
  · have hf := mapM_ok hL
    have key : ∀ (e : Str × V) (x : HelpItem D), (do
        let h ← helpOf helps e.1
        return item e.1 h e.2) = Except.ok x ↔ ∃ t, f e.1 = some t ∧ x = item e.1 t e.2 := by
      intro e x
      unfold helpOf
      rw [h.texts]
      cases f e.1 with
      | none => exact ⟨fun h => (by cases h), fun ⟨t, h, _⟩ => (by cases h)⟩
      | some t =>
        constructor
        · intro h; cases h; exact ⟨t, rfl, rfl⟩
        · rintro ⟨t', h, rfl⟩; cases h; rfl
    have hf' : List.Forall₂ (fun e x => ∃ t, f e.1 = some t ∧ x = item e.1 t e.2) m L :=
      hf.imp fun e x h => (key e x).1 h
    have mem : ∀ x, x ∈ L ↔ ∃ e ∈ m, ∃ t, f e.1 = some t ∧ x = item e.1 t e.2 := by
      clear hf hd hL h key
      induction hf' with
      | nil => simp
      | @cons e y m L h1 h2 ih =>
        intro x
        rw [List.mem_cons, ih x]
        constructor
        · rintro (rfl | ⟨e', he', t, h3, h4⟩)
          · obtain ⟨t, h3, h4⟩ := h1
            exact ⟨e, List.mem_cons_self, t, h3, h4⟩
          · exact ⟨e', List.mem_cons_of_mem _ he', t, h3, h4⟩
        · rintro ⟨e', he', t, h3, h4⟩
          rcases List.mem_cons.1 he' with rfl | he'
          · left
            obtain ⟨t', h5, h6⟩ := h1
            rw [h3] at h5
            cases h5
            rw [h4, h6]
          · exact Or.inr ⟨e', he', t, h3, h4⟩
    intro x
    rw [mem]
    constructor
    · rintro ⟨e, he, t, h3, h4⟩
      exact ⟨e.1, t, e.2, h4, h3, find_of_mem hd he⟩
    · rintro ⟨name, t, v, h4, h3, h5⟩
      exact ⟨(name, v), mem_of_find h5, t, h3, h4⟩
  · rw [List.forall₂_map_left_iff]
    refine (mapM_ok hL).imp fun e x hx => ?_
    obtain ⟨t, -, h2⟩ := bind_ok hx
    cases h2
    exact ⟨t, e.2, rfl⟩

/-- The names of the options of one type in a help text. -/
def namesIn (sel : HelpItem D → Option Str) (items : List (HelpItem D)) : List Str := items.filterMap sel

def doubleName : HelpItem D → Option Str | .double n _ _ => some n | _ => none
def intName : HelpItem D → Option Str | .int n _ _ => some n | _ => none
def stringName : HelpItem D → Option Str | .string n _ _ => some n | _ => none
def boolName : HelpItem D → Option Str | .bool n _ _ => some n | _ => none

theorem names_same {V : Type} (item : Str → Str → V → HelpItem D) (sel : HelpItem D → Option Str) (hs : ∀ n t v, sel (item n t v) = some n)
    {ks : List Str} {L : List (HelpItem D)} (h : List.Forall₂ (fun k x => ∃ t v, x = item k t v) ks L) : namesIn sel L = ks := by
  induction h with
  | nil => rfl
  | cons h1 h2 ih =>
    obtain ⟨t, v, rfl⟩ := h1
    rw [namesIn, List.filterMap_cons, hs]
    dsimp only
    rw [← namesIn, ih]

theorem names_other {V : Type} (item : Str → Str → V → HelpItem D) (sel : HelpItem D → Option Str) (hs : ∀ n t v, sel (item n t v) = none)
    {ks : List Str} {L : List (HelpItem D)} (h : List.Forall₂ (fun k x => ∃ t v, x = item k t v) ks L) : namesIn sel L = [] := by
  induction h with
  | nil => rfl
  | cons h1 h2 ih =>
    obtain ⟨t, v, rfl⟩ := h1
    rw [namesIn, List.filterMap_cons, hs]
    dsimp only
    rw [← namesIn, ih]

/-- **C87** After any history of calls, `help` lists every option that has been registered, once per type, in
alphabetical order, with the text last given for it and its current value; it lists nothing else. -/
theorem C87_help (c : Conv D) (calls : List (ParserCall D)) (p : Parser D) (h : runParser c calls = .ok p) :
    ∃ items, p.help = .ok items ∧
      (∀ name t v, .double name t v ∈ items ↔ lastHelp selDouble (builtin ++ calls) name = some t ∧ p.getDouble c name = v) ∧
      (∀ name t v, .int name t v ∈ items ↔ lastHelp selInt (builtin ++ calls) name = some t ∧ p.getInt name = v) ∧
      (∀ name t v, .string name t v ∈ items ↔ lastHelp selString (builtin ++ calls) name = some t ∧ p.getString name = v) ∧
      (∀ name t v, .bool name t v ∈ items ↔ lastHelp selBool (builtin ++ calls) name = some t ∧ p.getBool name = v) ∧
      (namesIn doubleName items).Pairwise (· < ·) ∧ (namesIn intName items).Pairwise (· < ·) ∧
      (namesIn stringName items).Pairwise (· < ·) ∧ (namesIn boolName items).Pairwise (· < ·) := by
  have hp := parser_ok h
  obtain ⟨L1, e1, m1, n1⟩ := helpLines_ok hp.double HelpItem.double
  obtain ⟨L2, e2, m2, n2⟩ := helpLines_ok hp.int (D := D) HelpItem.int
  obtain ⟨L3, e3, m3, n3⟩ := helpLines_ok hp.string (D := D) HelpItem.string
  obtain ⟨L4, e4, m4, n4⟩ := helpLines_ok hp.bool (D := D) HelpItem.bool
  have reg : ∀ {V : Type} {m : Map V} {t : Map Str} {f : Str → Option Str}, TableOk m t f → ∀ (name : Str) (s : Str) (v d : V),
      (f name = some s ∧ find m name = some v) ↔ (f name = some s ∧ (find m name).getD d = v) := by
    intro V m t f ht name s v d
    constructor
    · rintro ⟨a, b⟩; exact ⟨a, by rw [b]; rfl⟩
    · rintro ⟨a, b⟩
      refine ⟨a, ?_⟩
      have h1 : (find m name).isSome := by rw [ht.dom, ht.texts, a]; rfl
      obtain ⟨w, hw⟩ := Option.isSome_iff_exists.1 h1
      rw [hw] at b ⊢
      rw [← b]; rfl
  refine ⟨[.text p.purpose, .text p.execName] ++ L1 ++ L2 ++ L3 ++ L4 ++ [.text p.footer], ?_, ?_, ?_, ?_, ?_, ?_, ?_, ?_, ?_⟩
  · unfold Parser.help
    rw [e1]
    show (helpLines p.intArg p.intArgHelp HelpItem.int >>= _) = _
    rw [e2]
    show (helpLines p.stringArg p.stringArgHelp HelpItem.string >>= _) = _
    rw [e3]
    show (helpLines p.boolArg p.boolArgHelp HelpItem.bool >>= _) = _
    rw [e4]
    rfl
  · intro name t v
    rw [Parser.getDouble, ← reg hp.double name t v c.lowest]
    simp [m1, m2, m3, m4]
  · intro name t v
    rw [Parser.getInt, ← reg hp.int name t v]
    simp [m1, m2, m3, m4]
  · intro name t v
    rw [Parser.getString, ← reg hp.string name t v]
    simp [m1, m2, m3, m4]
  · intro name t v
    rw [Parser.getBool, ← reg hp.bool name t v false]
    have hm : HelpItem.bool name t v ∈ L4 ↔ lastHelp selBool (builtin ++ calls) name = some t ∧ find p.boolArg name = some v := by
      rw [m4]
      refine ⟨?_, fun h => ⟨name, t, v, rfl, h⟩⟩
      rintro ⟨_, _, _, e, h⟩
      cases e
      exact h
    rw [← hm]
    simp [m1, m2, m3]
  · have : namesIn doubleName ([.text p.purpose, .text p.execName] ++ L1 ++ L2 ++ L3 ++ L4 ++ [.text p.footer]) = p.doubleArg.map Prod.fst := by
      have a1 := names_same HelpItem.double doubleName (fun _ _ _ => rfl) n1
      have a2 := names_other HelpItem.int doubleName (fun _ _ _ => rfl) n2
      have a3 := names_other HelpItem.string doubleName (fun _ _ _ => rfl) n3
      have a4 := names_other HelpItem.bool doubleName (fun _ _ _ => rfl) n4
      unfold namesIn at *
      simp only [List.filterMap_append, a1, a2, a3, a4]
      have t : ∀ s, doubleName (HelpItem.text s : HelpItem D) = none := fun _ => rfl
      simp [t]
    rw [this]; exact hp.double.sorted
  · have : namesIn intName ([.text p.purpose, .text p.execName] ++ L1 ++ L2 ++ L3 ++ L4 ++ [.text p.footer]) = p.intArg.map Prod.fst := by
      have a1 := names_other HelpItem.double intName (fun _ _ _ => rfl) n1
      have a2 := names_same HelpItem.int intName (fun _ _ _ => rfl) n2
      have a3 := names_other HelpItem.string intName (fun _ _ _ => rfl) n3
      have a4 := names_other HelpItem.bool intName (fun _ _ _ => rfl) n4
      unfold namesIn at *
      simp only [List.filterMap_append, a1, a2, a3, a4]
      have t : ∀ s, intName (HelpItem.text s : HelpItem D) = none := fun _ => rfl
      simp [t]
    rw [this]; exact hp.int.sorted
  · have : namesIn stringName ([.text p.purpose, .text p.execName] ++ L1 ++ L2 ++ L3 ++ L4 ++ [.text p.footer]) = p.stringArg.map Prod.fst := by
      have a1 := names_other HelpItem.double stringName (fun _ _ _ => rfl) n1
      have a2 := names_other HelpItem.int stringName (fun _ _ _ => rfl) n2
      have a3 := names_same HelpItem.string stringName (fun _ _ _ => rfl) n3
      have a4 := names_other HelpItem.bool stringName (fun _ _ _ => rfl) n4
      unfold namesIn at *
      simp only [List.filterMap_append, a1, a2, a3, a4]
      have t : ∀ s, stringName (HelpItem.text s : HelpItem D) = none := fun _ => rfl
      simp [t]
    rw [this]; exact hp.string.sorted
  · have : namesIn boolName ([.text p.purpose, .text p.execName] ++ L1 ++ L2 ++ L3 ++ L4 ++ [.text p.footer]) = p.boolArg.map Prod.fst := by
      have a1 := names_other HelpItem.double boolName (fun _ _ _ => rfl) n1
      have a2 := names_other HelpItem.int boolName (fun _ _ _ => rfl) n2
      have a3 := names_other HelpItem.string boolName (fun _ _ _ => rfl) n3
      have a4 := names_same HelpItem.bool boolName (fun _ _ _ => rfl) n4
      unfold namesIn at *
      simp only [List.filterMap_append, a1, a2, a3, a4]
      have t : ∀ s, boolName (HelpItem.text s : HelpItem D) = none := fun _ => rfl
      simp [t]
    rw [this]; exact hp.bool.sorted

/-- The free texts of a help text, in the order printed. -/
def textsIn (items : List (HelpItem D)) : List Str := items.filterMap fun | .text s => some s | _ => none

/-- The last purpose given, the last command name parsed, and the footnotes, latest first, one per line. -/
def lastPurpose (calls : List (ParserCall D)) : Str := (calls.reverse.findSome? fun | .purpose s => some s | _ => none).getD []
def lastExec (calls : List (ParserCall D)) : Str := (calls.reverse.findSome? fun | .parse argv => argv.head? | _ => none).getD []
def footnotes (calls : List (ParserCall D)) : List Str := calls.reverse.filterMap fun | .footnote s => some s | _ => none

/-- The free texts of a parser. -/
structure TextOk (p : Parser D) (calls : List (ParserCall D)) : Prop where
  purpose : p.purpose = lastPurpose calls
  exec : p.execName = lastExec calls
  footer : p.footer = (footnotes calls).flatMap (fun s => s ++ ['\n']) ++ "\nReport bugs to alexander@gokliya.net\n".toList

theorem text_step {c : Conv D} {p p' : Parser D} {calls : List (ParserCall D)} (h : TextOk p calls) (x : ParserCall D)
    (hx : x.run c p = .ok p') : TextOk p' (calls ++ [x]) := by
  obtain ⟨h1, h2, h3⟩ := h
  have keep : ∀ q : Parser D, q.purpose = p.purpose → q.execName = p.execName → q.footer = p.footer →
      lastPurpose (calls ++ [x]) = lastPurpose calls → lastExec (calls ++ [x]) = lastExec calls →
      footnotes (calls ++ [x]) = footnotes calls → TextOk q (calls ++ [x]) := fun q e1 e2 e3 e4 e5 e6 =>
    ⟨by rw [e1, h1, e4], by rw [e2, h2, e5], by rw [e3, h3, e6]⟩
  have snoc : (calls ++ [x]).reverse = x :: calls.reverse := by simp
  have ep : lastPurpose (calls ++ [x]) = (List.findSome? (fun | .purpose s => some s | _ => none) (x :: calls.reverse)).getD [] := by
    unfold lastPurpose; rw [snoc]
  have ee : lastExec (calls ++ [x]) = (List.findSome? (fun | .parse argv => argv.head? | _ => none) (x :: calls.reverse)).getD [] := by
    unfold lastExec; rw [snoc]
  have ef : footnotes (calls ++ [x]) = List.filterMap (fun | .footnote s => some s | _ => none) (x :: calls.reverse) := by
    unfold footnotes; rw [snoc]
  cases x with
  | double k v t => cases hx; exact keep _ rfl rfl rfl ep ee ef
  | int k v t => cases hx; exact keep _ rfl rfl rfl ep ee ef
  | string k v t => cases hx; exact keep _ rfl rfl rfl ep ee ef
  | bool k v t => cases hx; exact keep _ rfl rfl rfl ep ee ef
  | purpose s => cases hx; exact ⟨ep.symm, h2.trans ee.symm, h3.trans (by rw [ef]; rfl)⟩
  | footnote s =>
    cases hx
    refine ⟨h1.trans ep.symm, h2.trans ee.symm, ?_⟩
    rw [ef]
    show s ++ '\n' :: p.footer = ((s :: footnotes calls).flatMap fun s => s ++ ['\n']) ++ _
    rw [h3, List.flatMap_cons]
    simp
  | parse argv =>
    obtain ⟨⟨b, q⟩, hp, hq⟩ := bind_ok hx
    cases hq
    match argv, hp, ep, ee, ef with
    | [], hp, _, _, _ => cases hp
    | exe :: args, hp, ep, ee, ef =>
      have fin : ∀ q : Parser D, q.purpose = p.purpose → q.execName = exe → q.footer = p.footer →
          TextOk q (calls ++ [.parse (exe :: args)]) := fun q e1 e2 e3 =>
        ⟨by rw [e1, h1]; exact ep.symm, by rw [e2]; exact ee.symm, by rw [e3, h3, ef]; rfl⟩
      cases b with
      | false =>
        cases hr : p.firstInvalid args with
        | error e =>
          exfalso
          have hr' : ({ p with execName := exe } : Parser D).firstInvalid args = .error e := by rw [firstInvalid_exe, hr]
          unfold Parser.parse at hp
          simp only at hp
          rw [hr'] at hp
          cases hp
        | ok r =>
          obtain ⟨h1, h2, -⟩ := parse_split c p exe args r hr
          by_cases hn : r = none
          · obtain ⟨d, i, s, e1, e2, e3, e⟩ := h2 hn _ hp
            cases e
          · rw [h1 hn] at hp
            cases hp
            exact fin _ rfl rfl rfl
      | true =>
        obtain ⟨d, i, s, h1, h2, h3, rfl⟩ := parse_true hp
        exact fin _ rfl rfl rfl

theorem text_ok {c : Conv D} {calls : List (ParserCall D)} {p : Parser D} (h : runParser c calls = .ok p) : TextOk p calls := by
  induction calls using List.reverseRecOn generalizing p with
  | nil =>
    cases h
    exact ⟨rfl, rfl, rfl⟩
  | append_singleton calls x ih =>
    unfold runParser at h
    rw [List.foldlM_append] at h
    obtain ⟨q, h1, h2⟩ := bind_ok h
    exact text_step (ih h1) x (c := c) (by simpa using h2)

theorem texts_none {V : Type} (item : Str → Str → V → HelpItem D) (hs : ∀ n t v, textsIn [item n t v] = [])
    {ks : List Str} {L : List (HelpItem D)} (h : List.Forall₂ (fun k x => ∃ t v, x = item k t v) ks L) : textsIn L = [] := by
  induction h with
  | nil => rfl
  | cons h1 h2 ih =>
    obtain ⟨t, v, rfl⟩ := h1
    rw [← List.singleton_append, textsIn, List.filterMap_append, ← textsIn, ← textsIn, hs, ih]
    rfl

/-- **C87** The free texts of the help: the purpose last set, the name of the last command line, and at the end
every footnote, latest first, before the address for bug reports. -/
theorem C87_texts (c : Conv D) (calls : List (ParserCall D)) (p : Parser D) (h : runParser c calls = .ok p) :
    ∃ items, p.help = .ok items ∧ textsIn items = [lastPurpose calls, lastExec calls,
      (footnotes calls).flatMap (fun s => s ++ ['\n']) ++ "\nReport bugs to alexander@gokliya.net\n".toList] := by
  have hp := parser_ok h
  obtain ⟨L1, e1, m1, n1⟩ := helpLines_ok hp.double HelpItem.double
  obtain ⟨L2, e2, m2, n2⟩ := helpLines_ok hp.int (D := D) HelpItem.int
  obtain ⟨L3, e3, m3, n3⟩ := helpLines_ok hp.string (D := D) HelpItem.string
  obtain ⟨L4, e4, m4, n4⟩ := helpLines_ok hp.bool (D := D) HelpItem.bool
  refine ⟨[.text p.purpose, .text p.execName] ++ L1 ++ L2 ++ L3 ++ L4 ++ [.text p.footer], ?_, ?_⟩
  · unfold Parser.help
    rw [e1]
    show (helpLines p.intArg p.intArgHelp HelpItem.int >>= _) = _
    rw [e2]
    show (helpLines p.stringArg p.stringArgHelp HelpItem.string >>= _) = _
    rw [e3]
    show (helpLines p.boolArg p.boolArgHelp HelpItem.bool >>= _) = _
    rw [e4]
    rfl
  · have a1 := texts_none HelpItem.double (fun _ _ _ => rfl) n1
    have a2 := texts_none HelpItem.int (fun _ _ _ => rfl) n2
    have a3 := texts_none HelpItem.string (fun _ _ _ => rfl) n3
    have a4 := texts_none HelpItem.bool (fun _ _ _ => rfl) n4
    obtain ⟨t1, t2, t3⟩ := text_ok h
    rw [← t1, ← t2, ← t3]
    unfold textsIn at *
    simp only [List.filterMap_append, a1, a2, a3, a4]
    rfl

example : ∃ p items, runParser (D := ℚ) decConv [.footnote "one".toList, .purpose "to test".toList, .parse ["a.out".toList],
      .footnote "two".toList] = .ok p ∧ p.help = .ok items ∧
    textsIn items = ["to test".toList, "a.out".toList, "two\none\n\nReport bugs to alexander@gokliya.net\n".toList] := by
  obtain ⟨items, h1, h2⟩ := C87_texts (D := ℚ) decConv [.footnote "one".toList, .purpose "to test".toList,
    .parse ["a.out".toList], .footnote "two".toList] _ rfl
  exact ⟨_, items, rfl, h1, h2.trans (by decide)⟩

/-- C19: the hypothesis on the keys is met by every parser that the member functions can make. -/
theorem C19_reachable (c : Conv D) (calls : List (ParserCall D)) (p : Parser D) (h : runParser c calls = .ok p) :
    DistinctKeys p.doubleArg ∧ DistinctKeys p.intArg ∧ DistinctKeys p.stringArg := by
  have hp := parser_ok h
  exact ⟨hp.double.sorted.imp fun h => h.ne, hp.int.sorted.imp fun h => h.ne, hp.string.sorted.imp fun h => h.ne⟩

/-- A history: two options, a command line, a new text for one of them. -/
def exCalls : List (ParserCall ℚ) :=
  [.int "-n".toList 7 "cells".toList, .bool "-v".toList false "verbose".toList,
   .parse ["a.out".toList, "-n".toList, "12".toList, "-v".toList], .int "-m".toList 3 "rows".toList]

example : ∃ p items, runParser decConv exCalls = .ok p ∧ p.help = .ok items ∧
    .int "-n".toList "cells".toList 12 ∈ items ∧ .bool "-v".toList "verbose".toList true ∈ items ∧
    .bool "-h".toList "Print help.".toList false ∈ items ∧ namesIn intName items = ["-m".toList, "-n".toList] := by
  have hrun : ∃ p, runParser decConv exCalls = .ok p ∧ p.getInt "-n".toList = 12 ∧ p.getBool "-v".toList = true ∧
      p.getBool "-h".toList = false ∧ ∃ items, p.help = .ok items ∧ namesIn intName items = ["-m".toList, "-n".toList] :=
    ⟨_, rfl, by decide, by decide, by decide, _, rfl, by decide⟩
  obtain ⟨p, h1, g1, g2, g3, items', h2, h3⟩ := hrun
  obtain ⟨items, e, -, i1, -, i2, -⟩ := C87_help decConv exCalls p h1
  rw [e] at h2
  obtain rfl : items = items' := by cases h2; rfl
  exact ⟨p, items, h1, e, (i1 _ _ _).2 ⟨by decide, g1⟩, (i2 _ _ _).2 ⟨by decide, g2⟩, (i2 _ _ _).2 ⟨by decide, g3⟩, h3⟩

end Sg.Props
