import Verif.NsArgs
import Verif.Props.Args
import Verif.Props.UpdateNs
/-!
# C67: the command line of the namespace script
-/

namespace Ramrod

/-! ## What a command line says -/

/-- One thing an option can ask for (help text of ramrod/scripts/update_ns.py:281-293). -/
inductive NsSetting where
  | from_ (v : String)
  | to_ (v : String)
  | pretty
  deriving DecidableEq

/-- The long option names. -/
def nsLongNames : List String := ["--help", "--from", "--to", "--pretty"]

/-- The short option names. -/
def nsShortNames : List String := ["-h", "-f", "-t", "-p"]

/-- The options that take a value: long name, letter. -/
def nsValueOptions : List (String × Char × (String → NsSetting)) := [("--from", 'f', .from_), ("--to", 't', .to_)]

/-- `p` is the option name `full` or a beginning of it that no other option name has. -/
def NsAbbrev (p : List Char) (full : String) : Prop :=
  p <+: full.toList ∧ 2 < p.length ∧ ∀ other ∈ nsLongNames, p <+: other.toList → other = full

/-- `v` cannot be read as an option: what stands before the first `=` begins no long name, and no short name begins it. -/
def NsNoOption (v : String) : Prop :=
  ("--".toList <+: v.toList → ∀ full ∈ nsLongNames, ¬ v.toList.takeWhile (· ≠ '=') <+: full.toList) ∧
    ∀ short ∈ nsShortNames, ¬ short.toList <+: v.toList

/-- `v` may stand on its own, as the file or the value of an option: it does not begin with a dash, or is just a dash, or is a
negative number or contains a blank and cannot be read as an option. -/
def NsStanding (neg : String → Bool) (v : String) : Prop :=
  v.toList.head? ≠ some '-' ∨ v = "-" ∨ ((neg v = true ∨ ' ' ∈ v.toList) ∧ NsNoOption v)

/-- `x` is the value `v` written directly after a letter, with or without `=`. -/
def Attached (x : List Char) (v : String) : Prop :=
  x = '=' :: v.toList ∨ x = v.toList ∧ x ≠ [] ∧ x.head? ≠ some '='

/-- `NsSpells neg f ss argv`: the strings `argv` are a way to write down the settings `ss`, one after another, and the file `f`
(`none`: no file is named).  Letters of options without value may be put together in front of another one.  A `--` may stand at the
end only, and directly beside the file if there is one. -/
inductive NsSpells (neg : String → Bool) : Option String → List NsSetting → List String → Prop
  | nil : NsSpells neg none [] []
  | dashes : NsSpells neg none [] ["--"]
  | dashesFile (v : String) : NsSpells neg (some v) [] ["--", v]
  | fileDashes {v} (hv : NsStanding neg v) : NsSpells neg (some v) [] [v, "--"]
  | file {v ss argv} (hv : NsStanding neg v) (hd : "--" ∉ argv) (h : NsSpells neg none ss argv) :
      NsSpells neg (some v) ss (v :: argv)
  | joined {p full c mk f ss argv} (v : String) (hm : (full, c, mk) ∈ nsValueOptions) (hp : NsAbbrev p full)
      (h : NsSpells neg f ss argv) : NsSpells neg f (mk v :: ss) (String.ofList (p ++ '=' :: v.toList) :: argv)
  | apart {p full c mk f v ss argv} (hm : (full, c, mk) ∈ nsValueOptions) (hp : NsAbbrev p full) (hv : NsStanding neg v)
      (h : NsSpells neg f ss argv) : NsSpells neg f (mk v :: ss) (String.ofList p :: v :: argv)
  | pretty {p f ss argv} (hp : NsAbbrev p "--pretty") (h : NsSpells neg f ss argv) :
      NsSpells neg f (.pretty :: ss) (String.ofList p :: argv)
  | short {f ss argv} (n : Nat) (h : NsSpells neg f ss argv) :
      NsSpells neg f (List.replicate (n + 1) .pretty ++ ss) (String.ofList ('-' :: List.replicate (n + 1) 'p') :: argv)
  | shortJoined {full c mk f x v ss argv} (n : Nat) (hm : (full, c, mk) ∈ nsValueOptions) (hx : Attached x v)
      (h : NsSpells neg f ss argv) :
      NsSpells neg f (List.replicate n .pretty ++ mk v :: ss) (String.ofList ('-' :: (List.replicate n 'p' ++ c :: x)) :: argv)
  | shortApart {full c mk f v ss argv} (n : Nat) (hm : (full, c, mk) ∈ nsValueOptions) (hv : NsStanding neg v)
      (h : NsSpells neg f ss argv) :
      NsSpells neg f (List.replicate n .pretty ++ mk v :: ss) (String.ofList ('-' :: (List.replicate n 'p' ++ [c])) :: v :: argv)

/-- The values given to the options that take one. -/
def NsSetting.from? : NsSetting → Option String | .from_ v => some v | _ => none
@[inherit_doc NsSetting.from?] def NsSetting.to? : NsSetting → Option String | .to_ v => some v | _ => none

/-- The arguments are what the settings ask for; of several values for one option the last counts; without a file, and if the file is
named `-`, it is the standard input. -/
structure NsAsks (f : Option String) (ss : List NsSetting) (a : NsArgs) : Prop where
  from_ : (ss.filterMap NsSetting.from?).getLast? = some a.from_
  to_ : (ss.filterMap NsSetting.to?).getLast? = some a.to_
  pretty : a.pretty = true ↔ .pretty ∈ ss
  file : ∀ v, a.file = some v ↔ f = some v ∧ v ≠ "-"

/-! ## The table of options -/

theorem nopt_nodup : (nsOptNames.map (·.1)).Nodup := by decide +kernel

theorem nopt_shape : ∀ e ∈ nsOptNames, "--".toList <+: e.1 ∧ 2 < e.1.length ∨
    e ∈ [(['-', 'h'], NsOpt.help), (['-', 'f'], .from_), (['-', 't'], .to_), (['-', 'p'], .pretty)] := by
  decide +kernel

theorem nshort_opt : ∀ e ∈ [(['-', 'h'], NsOpt.help), (['-', 'f'], .from_), (['-', 't'], .to_), (['-', 'p'], .pretty)],
    String.ofList e.1 ∈ nsShortNames := by
  decide +kernel

theorem nopt_noEq : ∀ e ∈ nsOptNames, '=' ∉ e.1 := by decide +kernel

theorem nopt_long : ∀ e ∈ nsOptNames, "--".toList <+: e.1 → ∃ full ∈ nsLongNames, full.toList = e.1 := by decide +kernel

theorem nlong_opt : ∀ full ∈ nsLongNames, ∃ e ∈ nsOptNames, full.toList = e.1 := by decide +kernel

theorem nlong_inj : ∀ x ∈ nsLongNames, ∀ y ∈ nsLongNames, x.toList = y.toList → x = y := by decide +kernel

theorem nopt_key {e e' : List Char × NsOpt} (h : e ∈ nsOptNames) (h' : e' ∈ nsOptNames) (hk : e.1 = e'.1) : e = e' := by
  have key : ∀ (l : List (List Char × NsOpt)), (l.map (·.1)).Nodup → e ∈ l → e' ∈ l → e = e' := by
    intro l
    induction l with
    | nil => intro _ h _; cases h
    | cons a l ih =>
      intro hn h h'
      simp only [List.map_cons, List.nodup_cons] at hn
      rcases List.mem_cons.1 h with rfl | h1
      · rcases List.mem_cons.1 h' with rfl | h2
        · rfl
        · exact absurd (List.mem_map.2 ⟨e', h2, hk.symm⟩) hn.1
      · rcases List.mem_cons.1 h' with rfl | h2
        · exact absurd (List.mem_map.2 ⟨e, h1, hk⟩) hn.1
        · exact ih hn.2 h1 h2
  exact key _ nopt_nodup h h'

theorem nexact_some {p : List Char} {o : NsOpt} : nsExact p = some o ↔ (p, o) ∈ nsOptNames := by
  unfold nsExact
  constructor
  · intro h
    obtain ⟨e, he, rfl⟩ := Option.map_eq_some_iff.1 h
    have h1 := List.find?_some he
    have h2 := List.mem_of_find?_eq_some he
    have h3 : e.1 = p := by simpa using h1
    rw [← h3]; exact h2
  · intro h
    cases hf : nsOptNames.find? (fun e => e.1 == p) with
    | none =>
      have := List.find?_eq_none.1 hf _ h
      simp at this
    | some e =>
      have h1 : e.1 = p := by simpa using List.find?_some hf
      have h2 := List.mem_of_find?_eq_some hf
      have := nopt_key h2 h h1
      rw [this]; rfl

theorem nexact_none {p : List Char} : nsExact p = none ↔ ∀ o, (p, o) ∉ nsOptNames := by
  constructor
  · intro h o ho
    rw [nexact_some.2 ho] at h; cases h
  · intro h
    cases he : nsExact p with
    | none => rfl
    | some o => exact absurd (nexact_some.1 he) (h o)

theorem nlong_dashes : ∀ full ∈ nsLongNames, "--".toList <+: full.toList := by decide +kernel

theorem nfilter_unique {p : List Char} {full : String} {o : NsOpt} (h : NsAbbrev p full) (hf : full ∈ nsLongNames)
    (hm : (full.toList, o) ∈ nsOptNames) : nsOptNames.filter (fun e => p.isPrefixOf e.1) = [(full.toList, o)] := by
  refine all_same ?_ ?_ ?_
  · exact List.Pairwise.filter _ (by decide +kernel : nsOptNames.Nodup)
  · exact List.mem_filter.2 ⟨hm, by simpa using h.1⟩
  · intro e he
    obtain ⟨he, hp⟩ := List.mem_filter.1 he
    have hp : p <+: e.1 := by simpa using hp
    have hd : "--".toList <+: p := prefix_dashes (Nat.le_of_lt h.2.1) h.1 (nlong_dashes _ hf)
    obtain ⟨other, ho, hoe⟩ := nopt_long e he (List.IsPrefix.trans hd hp)
    have := h.2.2 other ho (by rw [hoe]; exact hp)
    subst this
    exact nopt_key he hm hoe.symm

theorem nunique_filter {p : List Char} {e : List Char × NsOpt} (hd : "--".toList <+: p)
    (h : nsOptNames.filter (fun e => p.isPrefixOf e.1) = [e]) :
    e ∈ nsOptNames ∧ ∃ full ∈ nsLongNames, full.toList = e.1 ∧ NsAbbrev p full := by
  have hmem : e ∈ nsOptNames.filter (fun e => p.isPrefixOf e.1) := by rw [h]; simp
  obtain ⟨he, hp⟩ := List.mem_filter.1 hmem
  have hp : p <+: e.1 := by simpa using hp
  obtain ⟨full, hf, hfe⟩ := nopt_long e he (List.IsPrefix.trans hd hp)
  refine ⟨he, full, hf, hfe, by rw [hfe]; exact hp, ?_, ?_⟩
  · apply Nat.lt_of_not_le
    intro hl
    have : p = "--".toList := by
      obtain ⟨r, rfl⟩ := hd
      have : r = [] := by
        have : r.length = 0 := by simp at hl; exact hl ▸ rfl
        exact List.eq_nil_of_length_eq_zero this
      simp [this]
    subst this
    have h8 : (nsOptNames.filter (fun e => "--".toList.isPrefixOf e.1)).length = 1 := congrArg List.length h
    exact absurd h8 (by decide +kernel)
  · intro other ho hpo
    obtain ⟨e', he', hoe⟩ := nlong_opt other ho
    have : e' ∈ nsOptNames.filter (fun e => p.isPrefixOf e.1) := List.mem_filter.2 ⟨he', by rw [← hoe]; simpa using hpo⟩
    rw [h] at this
    have := List.mem_singleton.1 this
    subst this
    exact nlong_inj _ ho _ hf (by rw [hoe, hfe])

theorem nabbrev_noEq {p : List Char} {full : String} (h : NsAbbrev p full) (hf : full ∈ nsLongNames) : '=' ∉ p := by
  obtain ⟨e, he, hfe⟩ := nlong_opt full hf
  intro hp
  exact nopt_noEq e he (hfe ▸ h.1.subset hp)

/-! ## Reading one argument -/

theorem ntuples_long {s : List Char} (hs : "--".toList <+: s) :
    nsTuples s = (nsOptNames.filter (fun e => (partitionEq s).1.isPrefixOf e.1)).map
      (fun e => .opt e.2 (optShort e.1) ((partitionEq s).2.map (fun x => (true, x)))) := by
  unfold nsTuples
  rw [if_neg (by rw [short_long hs]; decide)]

theorem nread_abbrev (neg : String → Bool) {p : List Char} {full : String} {o : NsOpt} (h : NsAbbrev p full) (hf : full ∈ nsLongNames)
    (hm : (full.toList, o) ∈ nsOptNames) : nsReadArg neg (String.ofList p) = some (.opt o false none) := by
  have hd : "--".toList <+: p := prefix_dashes (Nat.le_of_lt h.2.1) h.1 (nlong_dashes _ hf)
  have hfil := nfilter_unique h hf hm
  have hne := nabbrev_noEq h hf
  have ht : nsTuples p = [.opt o false none] := by
    rw [ntuples_long hd, partition_clean hne, hfil]
    simp [short_long (nlong_dashes _ hf)]
  have hl := h.2.1
  obtain ⟨r, hr⟩ := dashes_head hd
  unfold nsReadArg
  rw [String.toList_ofList]
  generalize String.ofList p = sp
  subst hr
  dsimp only
  rw [partition_clean hne, ht]
  rw [if_neg (by decide)]
  cases he : nsExact ('-' :: '-' :: r) with
  | none => simp
  | some o' =>
    have hmem := nexact_some.1 he
    have : (('-' :: '-' :: r), o') ∈ nsOptNames.filter (fun e => ('-' :: '-' :: r).isPrefixOf e.1) :=
      List.mem_filter.2 ⟨hmem, by simp⟩
    rw [hfil] at this
    have := List.mem_singleton.1 this
    simp only [Prod.mk.injEq] at this
    rw [this.2, short_long hd]

theorem nread_joined (neg : String → Bool) {p x : List Char} {full : String} {o : NsOpt} (h : NsAbbrev p full)
    (hf : full ∈ nsLongNames) (hm : (full.toList, o) ∈ nsOptNames) :
    nsReadArg neg (String.ofList (p ++ '=' :: x)) = some (.opt o false (some (true, x))) := by
  have hd : "--".toList <+: p := prefix_dashes (Nat.le_of_lt h.2.1) h.1 (nlong_dashes _ hf)
  have hds : "--".toList <+: p ++ '=' :: x := List.IsPrefix.trans hd (List.prefix_append _ _)
  have hfil := nfilter_unique h hf hm
  have hne := nabbrev_noEq h hf
  have ht : nsTuples (p ++ '=' :: x) = [.opt o false (some (true, x))] := by
    rw [ntuples_long hds, partition_joined hne, hfil]
    simp [short_long (nlong_dashes _ hf)]
  have he : nsExact (p ++ '=' :: x) = none := by
    apply nexact_none.2
    intro o' ho'
    exact nopt_noEq _ ho' (by simp)
  have hpart := partition_joined (x := x) hne
  unfold nsReadArg
  rw [String.toList_ofList]
  generalize String.ofList (p ++ '=' :: x) = sp
  obtain ⟨r, hr⟩ := dashes_head hds
  rw [hr] at he ht hpart ⊢
  dsimp only
  rw [hpart, ht, if_neg (by decide), he]
  dsimp only
  rw [if_neg (by simp)]
  cases he2 : nsExact p with
  | none => rfl
  | some o' =>
    have hmem := nexact_some.1 he2
    have : (p, o') ∈ nsOptNames.filter (fun e => p.isPrefixOf e.1) := List.mem_filter.2 ⟨hmem, by simp⟩
    rw [hfil] at this
    have := List.mem_singleton.1 this
    simp only [Prod.mk.injEq] at this
    dsimp only
    rw [this.2, short_long hd]

/-- The four single-dash options. -/
theorem nexact_short {c : Char} {o : NsOpt} (h : nsExact ['-', c] = some o) :
    (c, o) ∈ [('h', NsOpt.help), ('f', .from_), ('t', .to_), ('p', .pretty)] := by
  rcases nopt_shape _ (nexact_some.1 h) with ⟨_, hl⟩ | h
  · simp at hl
  · simpa using h

theorem nexact_value {c : Char} {o : NsOpt} (h : nsExact ['-', c] = some o) : c ≠ '-' ∧ c ≠ '=' := by
  have := nexact_short h
  simp only [List.mem_cons, Prod.mk.injEq, List.not_mem_nil, or_false] at this
  rcases this with ⟨rfl, _⟩ | ⟨rfl, _⟩ | ⟨rfl, _⟩ | ⟨rfl, _⟩ <;> decide

/-- No option name begins with a dash and another character and goes on. -/
theorem nopt_two {c d : Char} {r : List Char} (hc : c ≠ '-') (o : NsOpt) : ('-' :: c :: d :: r, o) ∉ nsOptNames := by
  intro h
  rcases nopt_shape _ h with ⟨hd, _⟩ | h
  · obtain ⟨q, hq⟩ := dashes_head hd
    simp only [List.cons.injEq] at hq
    exact hc hq.2.1
  · simp at h

/-- What stands after the letter of an option, as it is attached to it. -/
def nsAttach : List Char → Option (Bool × List Char)
  | [] => none
  | '=' :: x => some (true, x)
  | x => some (false, x)

theorem nsAttach_cons {d : Char} {r : List Char} (h : d ≠ '=') : nsAttach (d :: r) = some (false, d :: r) := by
  unfold nsAttach
  split
  · rename_i h'; cases h'
  · rename_i h'; simp only [List.cons.injEq] at h'; exact absurd h'.1 h
  · rfl

/-- The forms in which an argument is taken for an option. -/
inductive NsForm (s : List Char) : NsOpt → Bool → Option (Bool × List Char) → Prop
  | long {full o} (hf : full ∈ nsLongNames) (hm : (full.toList, o) ∈ nsOptNames) (h : NsAbbrev s full) : NsForm s o false none
  | joined {p x full o} (hf : full ∈ nsLongNames) (hm : (full.toList, o) ∈ nsOptNames) (h : NsAbbrev p full)
      (hs : s = p ++ '=' :: x) : NsForm s o false (some (true, x))
  | short {c o x a} (h : nsExact ['-', c] = some o) (hs : s = '-' :: c :: x) (ha : a = nsAttach x) : NsForm s o true a

theorem nform_exact {s : List Char} {o : NsOpt} (h : (s, o) ∈ nsOptNames) : NsForm s o (optShort s) none := by
  rcases nopt_shape _ h with ⟨hd, hl⟩ | h'
  · rw [short_long hd]
    obtain ⟨full, hf, hfe⟩ := nopt_long _ h hd
    have hab : ∀ x ∈ nsLongNames, ∀ y ∈ nsLongNames, x.toList <+: y.toList → y = x := by decide +kernel
    refine .long hf (by rw [hfe]; exact h) ⟨by rw [hfe]; exact List.prefix_refl _, hl, ?_⟩
    intro other ho hp
    exact hab _ hf _ ho (by rw [hfe]; exact hp)
  · have he := nexact_some.2 h
    simp only [List.mem_cons, Prod.mk.injEq, List.not_mem_nil, or_false] at h'
    rcases h' with ⟨rfl, _⟩ | ⟨rfl, _⟩ | ⟨rfl, _⟩ | ⟨rfl, _⟩ <;> exact .short he rfl rfl

theorem ntuples_short {c : Char} {r : List Char} (hc : c ≠ '-') (he : nsExact ('-' :: c :: r) = none) :
    nsTuples ('-' :: c :: r) =
      match nsExact ['-', c] with
      | some o => [.opt o true (some (false, r))]
      | none => [] := by
  have hs : optShort ('-' :: c :: r) = true := by simp [optShort, hc]
  have hmap : nsTuples ('-' :: c :: r) = (nsOptNames.filter (fun e => e.1 == ['-', c])).map
      (fun e => .opt e.2 (optShort e.1) (some (false, r))) := by
    unfold nsTuples
    rw [if_pos hs]
    have hno : ∀ e ∈ nsOptNames, ('-' :: c :: r).isPrefixOf e.1 = false := by
      intro e hem
      cases hp : ('-' :: c :: r).isPrefixOf e.1 with
      | false => rfl
      | true =>
        have hp : '-' :: c :: r <+: e.1 := by simpa using hp
        rcases nopt_shape e hem with ⟨hd, _⟩ | hsh
        · obtain ⟨q, hq⟩ := dashes_head hd
          rw [hq, List.cons_prefix_cons, List.cons_prefix_cons] at hp
          exact absurd hp.2.1 hc
        · have h2 : e.1.length = 2 := by
            revert hsh; generalize e = e; revert e; decide
          have hl := hp.length_le
          rw [h2] at hl
          simp at hl
          subst hl
          have : ['-', c] = e.1 := hp.eq_of_length (by rw [h2]; rfl)
          exact absurd (show (['-', c], e.2) ∈ nsOptNames by rw [this]; exact hem) (nexact_none.1 he _)
    revert hno
    generalize nsOptNames = l
    intro hno
    induction l with
    | nil => rfl
    | cons e l ih =>
      rw [List.filterMap_cons, ih (fun e he => hno e (by simp [he])), hno e (by simp)]
      by_cases h : e.1 = ['-', c]
      · simp [h]
      · simp [h]
  rw [hmap]
  cases ho : nsExact ['-', c] with
  | some o =>
    have : nsOptNames.filter (fun e => e.1 == ['-', c]) = [(['-', c], o)] := by
      have h4 := nexact_short ho
      simp only [List.mem_cons, Prod.mk.injEq, List.not_mem_nil, or_false] at h4
      rcases h4 with ⟨rfl, rfl⟩ | ⟨rfl, rfl⟩ | ⟨rfl, rfl⟩ | ⟨rfl, rfl⟩ <;> decide +kernel
    rw [this]
    simp [optShort, hc]
  | none =>
    rw [List.filter_eq_nil_iff.2]
    · rfl
    · intro e hem heq
      have : e.1 = ['-', c] := by simpa using heq
      exact nexact_none.1 ho e.2 (this ▸ hem)

/-- How an argument is read, for an argument that begins with a dash and more. -/
theorem nread_dash (neg : String → Bool) {s : String} {c : Char} {r : List Char} (hs : s.toList = '-' :: c :: r) :
    nsReadArg neg s =
      match nsExact ('-' :: c :: r) with
      | some o => some (.opt o (optShort ('-' :: c :: r)) none)
      | none =>
        match (partitionEq ('-' :: c :: r)).2, nsExact (partitionEq ('-' :: c :: r)).1 with
        | some x, some o => some (.opt o (optShort (partitionEq ('-' :: c :: r)).1) (some (true, x)))
        | _, _ =>
          match nsTuples ('-' :: c :: r) with
          | [t] => some t
          | _ :: _ :: _ => none
          | [] => if neg s then some .plain else if ' ' ∈ '-' :: c :: r then some .plain else some .unknown := by
  unfold nsReadArg
  rw [hs]
  dsimp only
  rw [if_neg (by decide)]
  cases nsExact ('-' :: c :: r) with
  | some o => rfl
  | none => simp only [reduceCtorEq, if_false]; rfl

theorem nform_partition {s : List Char} {o : NsOpt} {x : List Char} (hp : (partitionEq s).2 = some x)
    (he : nsExact (partitionEq s).1 = some o) : NsForm s o (optShort (partitionEq s).1) (some (true, x)) := by
  have hs := partition_some hp
  generalize (partitionEq s).1 = p at hs he ⊢
  have hf := nform_exact (nexact_some.1 he)
  generalize hsh : optShort p = sh at hf ⊢
  generalize hn : (none : Option (Bool × List Char)) = nn at hf
  cases hf with
  | long hf hm h => exact .joined hf hm h hs
  | @short c _ y _ h hs' ha =>
    have : y = [] := by
      rw [← hn] at ha
      unfold nsAttach at ha
      split at ha
      · rfl
      · cases ha
      · cases ha
    subst this
    exact .short h (by rw [hs, hs']; rfl) rfl
  | joined => cases hn

theorem nread_short (neg : String → Bool) {c : Char} {o : NsOpt} {x : List Char} {s : String} (h : nsExact ['-', c] = some o)
    (hs : s.toList = '-' :: c :: x) : nsReadArg neg s = some (.opt o true (nsAttach x)) := by
  obtain ⟨hc, hce⟩ := nexact_value h
  have hsh : optShort ['-', c] = true := by simp [optShort, hc]
  rw [nread_dash neg hs]
  match x with
  | [] => rw [h]; dsimp only; rw [hsh]; rfl
  | d :: y =>
    have he : nsExact ('-' :: c :: d :: y) = none := nexact_none.2 (nopt_two hc)
    rw [he]
    dsimp only
    by_cases hd : d = '='
    · subst hd
      have : partitionEq ('-' :: c :: '=' :: y) = (['-', c], some y) :=
        partition_joined (p := ['-', c]) (by simp [Ne.symm hce])
      rw [this]
      dsimp only
      rw [h]
      dsimp only
      rw [hsh]
      rfl
    · have : nsExact (partitionEq ('-' :: c :: d :: y)).1 = none := by
        have : (partitionEq ('-' :: c :: d :: y)).1 = '-' :: c :: d :: (partitionEq y).1 := by
          simp [partitionEq, hce, hd]
        rw [this]
        exact nexact_none.2 (nopt_two hc)
      rw [this, ntuples_short hc he, h, nsAttach_cons hd]
      cases (partitionEq ('-' :: c :: d :: y)).2 <;> rfl

/-- An argument taken for an option has one of the forms, one taken for a plain argument can stand on its own. -/
theorem nread_inv (neg : String → Bool) {s : String} {t : NsTok} (h : nsReadArg neg s = some t) :
    (∃ o sh at_, t = .opt o sh at_ ∧ NsForm s.toList o sh at_) ∨ (t = .plain ∧ NsStanding neg s) ∨ t = .unknown := by
  match hs : s.toList with
  | [] =>
    unfold nsReadArg at h
    rw [hs] at h
    cases h
    exact Or.inr (Or.inl ⟨rfl, Or.inl (by rw [hs]; simp)⟩)
  | [c] =>
    by_cases hc : c = '-'
    · subst hc
      have hse : s = "-" := String.toList_inj.1 (by rw [hs]; decide +kernel)
      unfold nsReadArg at h
      rw [hs] at h
      have he : nsExact ['-'] = none := by decide +kernel
      simp only [he] at h
      simp at h
      exact Or.inr (Or.inl ⟨h.symm, Or.inr (Or.inl hse)⟩)
    · unfold nsReadArg at h
      rw [hs] at h
      simp [hc] at h
      exact Or.inr (Or.inl ⟨h.symm, Or.inl (by rw [hs]; simpa using hc)⟩)
  | c0 :: c :: r =>
    by_cases hc0 : c0 = '-'
    · subst hc0
      by_cases hc : c = '-'
      · subst hc
        rw [nread_dash neg hs] at h
        cases he : nsExact ('-' :: '-' :: r) with
        | some o =>
          rw [he] at h
          cases h
          exact Or.inl ⟨_, _, _, rfl, nform_exact (nexact_some.1 he)⟩
        | none =>
          rw [he] at h
          dsimp only at h
          split at h
          · rename_i x o hx ho
            cases h
            exact Or.inl ⟨_, _, _, rfl, nform_partition hx ho⟩
          · have hd : "--".toList <+: '-' :: '-' :: r := ⟨r, rfl⟩
            have hdp : "--".toList <+: (partitionEq ('-' :: '-' :: r)).1 := by
              refine ⟨(partitionEq r).1, ?_⟩
              simp [partitionEq]
            rw [ntuples_long hd] at h
            split at h
            · rename_i t' ht
              cases h
              obtain ⟨e, hfil, rfl⟩ := List.map_eq_singleton_iff.1 ht
              obtain ⟨hem, full, hf, hfe, hab⟩ := nunique_filter hdp hfil
              refine Or.inl ⟨_, _, _, rfl, ?_⟩
              rw [← hfe, short_long (nlong_dashes _ hf)]
              cases hp : (partitionEq ('-' :: '-' :: r)).2 with
              | none =>
                rw [partition_none hp] at hab
                exact .long hf (by rw [hfe]; exact hem) hab
              | some x => exact .joined hf (by rw [hfe]; exact hem) hab (partition_some hp)
            · cases h
            · rename_i ht
              have hnil := List.map_eq_nil_iff.1 ht
              have hno : NsNoOption s := by
                refine ⟨fun _ full hf hp => ?_, ?_⟩
                · obtain ⟨e, hem, hfe⟩ := nlong_opt full hf
                  rw [hs, ← partition_fst] at hp
                  have := List.filter_eq_nil_iff.1 hnil e hem
                  rw [← hfe] at this
                  exact this (by simpa using hp)
                · rw [hs]
                  have hk : ∀ short ∈ nsShortNames, ∃ d, d ≠ '-' ∧ short.toList = ['-', d] := by
                    intro short hsh
                    simp only [nsShortNames, List.mem_cons, List.not_mem_nil, or_false] at hsh
                    rcases hsh with rfl | rfl | rfl | rfl
                    · exact ⟨'h', by decide, by decide +kernel⟩
                    · exact ⟨'f', by decide, by decide +kernel⟩
                    · exact ⟨'t', by decide, by decide +kernel⟩
                    · exact ⟨'p', by decide, by decide +kernel⟩
                  intro short hsh hp
                  obtain ⟨d, hd, hde⟩ := hk short hsh
                  rw [hde, List.cons_prefix_cons, List.cons_prefix_cons] at hp
                  exact hd hp.2.1
              split at h
              · cases h; exact Or.inr (Or.inl ⟨rfl, Or.inr (Or.inr ⟨Or.inl ‹_›, hno⟩)⟩)
              · split at h
                · cases h; exact Or.inr (Or.inl ⟨rfl, Or.inr (Or.inr ⟨Or.inr (by rw [hs]; assumption), hno⟩)⟩)
                · cases h; exact Or.inr (Or.inr rfl)
      · cases ho : nsExact ['-', c] with
        | some o =>
          rw [nread_short neg ho hs] at h
          cases h
          exact Or.inl ⟨_, _, _, rfl, .short ho rfl rfl⟩
        | none =>
          have hno : NsNoOption s := by
            refine ⟨fun hd => ?_, ?_⟩
            · obtain ⟨q, hq⟩ := dashes_head hd
              rw [hs] at hq
              simp only [List.cons.injEq] at hq
              exact absurd hq.2.1 hc
            · rw [hs]
              intro short hsh hp
              simp only [nsShortNames, List.mem_cons, List.not_mem_nil, or_false] at hsh
              have key : ∀ d, short.toList = ['-', d] → nsExact ['-', d] ≠ none → False := by
                intro d hd hne
                rw [hd, List.cons_prefix_cons, List.cons_prefix_cons] at hp
                rw [hp.2.1] at hne
                exact hne ho
              rcases hsh with rfl | rfl | rfl | rfl
              · exact key 'h' (by decide +kernel) (by decide +kernel)
              · exact key 'f' (by decide +kernel) (by decide +kernel)
              · exact key 't' (by decide +kernel) (by decide +kernel)
              · exact key 'p' (by decide +kernel) (by decide +kernel)
          have hnm : ∀ r', nsExact ('-' :: c :: r') = none := by
            intro r'
            cases r' with
            | nil => exact ho
            | cons d r' => exact nexact_none.2 (nopt_two hc)
          rw [nread_dash neg hs, hnm] at h
          dsimp only at h
          have hpe : nsExact (partitionEq ('-' :: c :: r)).1 = none := by
            by_cases hce : c = '='
            · subst hce
              have : (partitionEq ('-' :: '=' :: r)).1 = ['-'] := by simp [partitionEq]
              rw [this]; decide +kernel
            · have : (partitionEq ('-' :: c :: r)).1 = '-' :: c :: (partitionEq r).1 := by simp [partitionEq, hce]
              rw [this]; exact hnm _
          rw [hpe, ntuples_short hc (hnm r), ho] at h
          dsimp only at h
          have h' : (if neg s = true then some NsTok.plain else if ' ' ∈ '-' :: c :: r then some .plain else some .unknown) = some t := by
            cases hx : (partitionEq ('-' :: c :: r)).2 <;> rw [hx] at h <;> exact h
          split at h'
          · cases h'; exact Or.inr (Or.inl ⟨rfl, Or.inr (Or.inr ⟨Or.inl ‹_›, hno⟩)⟩)
          · split at h'
            · cases h'; exact Or.inr (Or.inl ⟨rfl, Or.inr (Or.inr ⟨Or.inr (by rw [hs]; assumption), hno⟩)⟩)
            · cases h'; exact Or.inr (Or.inr rfl)
    · unfold nsReadArg at h
      rw [hs] at h
      simp [hc0] at h
      exact Or.inr (Or.inl ⟨h.symm, Or.inl (by rw [hs]; simpa using hc0)⟩)

theorem nread_standing (neg : String → Bool) {s : String} (h : NsStanding neg s) : nsReadArg neg s = some .plain := by
  match hs : s.toList with
  | [] => unfold nsReadArg; rw [hs]
  | [c] =>
    unfold nsReadArg; rw [hs]
    by_cases hc : c = '-'
    · subst hc
      have he : nsExact ['-'] = none := by decide +kernel
      simp [he]
    · simp [hc]
  | c0 :: c :: r =>
    by_cases hc0 : c0 = '-'
    · subst hc0
      rcases h with h | h | ⟨hsp, hno⟩
      · rw [hs] at h; simp at h
      · subst h
        have : ("-").toList.length = 1 := by decide +kernel
        rw [hs] at this; simp at this
      · have hname : ∀ o, (((partitionEq ('-' :: c :: r)).1, o) : List Char × NsOpt) ∉ nsOptNames := by
          intro o ho
          rcases nopt_shape _ ho with ⟨hd, _⟩ | h
          · obtain ⟨full, hf, hfe⟩ := nopt_long _ ho hd
            refine hno.1 ?_ full hf ?_
            · rw [hs]
              cases hp : (partitionEq ('-' :: c :: r)).2 with
              | none => rw [partition_none hp] at hd; exact hd
              | some x => rw [partition_some hp]; exact List.IsPrefix.trans hd (List.prefix_append _ _)
            · rw [hs, ← partition_fst, hfe]; exact List.prefix_refl _
          · refine hno.2 _ (nshort_opt _ h) ?_
            rw [hs, String.toList_ofList]
            cases hp : (partitionEq ('-' :: c :: r)).2 with
            | none => rw [partition_none hp]; exact List.prefix_refl _
            | some x => exact ⟨_, (partition_some hp).symm⟩
        have he1 : nsExact (partitionEq ('-' :: c :: r)).1 = none := nexact_none.2 hname
        have he : nsExact ('-' :: c :: r) = none := by
          apply nexact_none.2
          intro o ho
          have hne := nopt_noEq _ ho
          have := hname o
          rw [partition_clean hne] at this
          exact this ho
        have ht : nsTuples ('-' :: c :: r) = [] := by
          by_cases hc : c = '-'
          · subst hc
            have hd : "--".toList <+: '-' :: '-' :: r := ⟨r, rfl⟩
            rw [ntuples_long hd, List.map_eq_nil_iff, List.filter_eq_nil_iff]
            intro e hem hp
            have hp : (partitionEq ('-' :: '-' :: r)).1 <+: e.1 := by simpa using hp
            have hde : "--".toList <+: e.1 := by
              refine List.IsPrefix.trans ⟨(partitionEq r).1, ?_⟩ hp
              simp [partitionEq]
            obtain ⟨full, hf, hfe⟩ := nopt_long e hem hde
            exact hno.1 (by rw [hs]; exact hd) full hf (by rw [hs, ← partition_fst, hfe]; exact hp)
          · rw [ntuples_short hc he]
            cases ho : nsExact ['-', c] with
            | none => rfl
            | some o =>
              have h4 := nopt_shape _ (nexact_some.1 ho)
              rcases h4 with ⟨_, hl⟩ | h4
              · simp at hl
              · refine absurd ?_ (hno.2 _ (nshort_opt _ h4))
                rw [hs, String.toList_ofList]
                exact ⟨r, rfl⟩
        rw [nread_dash neg hs, he]
        dsimp only
        rw [he1, ht]
        dsimp only
        rcases hsp with hn | hn
        · rw [if_pos hn]
          cases (partitionEq ('-' :: c :: r)).2 <;> rfl
        · rw [hs] at hn
          by_cases hg : neg s = true
          · rw [if_pos hg]
            cases (partitionEq ('-' :: c :: r)).2 <;> rfl
          · rw [if_neg hg, if_pos hn]
            cases (partitionEq ('-' :: c :: r)).2 <;> rfl
    · unfold nsReadArg; rw [hs]
      simp [hc0]

/-! ## Letters put together -/

/-- How a string of letters ends whose last letter takes a value and is followed by `x`. -/
def nsEndOf (o : NsOpt) : List Char → NsEnd
  | [] => .next o
  | '=' :: x => .value o x
  | x => .value o x

theorem nexact_p : nsExact ['-', 'p'] = some .pretty := by decide +kernel

theorem ncluster_p {o : NsOpt} {y : List Char} (hy : y ≠ []) (he : y.head? ≠ some '=') :
    nsCluster o false ('p' :: y) = (nsCluster .pretty false y).map (fun r => (o :: r.1, r.2)) := by
  match y, hy, he with
  | d :: ds, _, he =>
    rw [nsCluster.eq_def]
    dsimp only
    rw [nexact_p]
    simp only [Bool.false_or]
    rw [if_neg (by decide)]
    rw [if_neg (by decide)]
    split
    · rename_i h; cases h
    · rename_i h; simp only [List.cons.injEq] at h; rw [h.1] at he; exact absurd rfl he
    · rename_i h; simp only [List.cons.injEq] at h; rw [h.1, h.2]

theorem ncluster_value {o o' : NsOpt} {c : Char} {x : List Char} (hc : nsExact ['-', c] = some o') (hv : o'.takesValue = true) :
    nsCluster o false (c :: x) = some ([o], nsEndOf o' x) := by
  rw [nsCluster.eq_def]
  dsimp only
  rw [hc]
  simp only [Bool.false_or]
  rw [if_neg (by simpa using (nexact_value hc).1)]
  rw [if_pos hv]
  unfold nsEndOf
  split
  · rfl
  · rfl
  · split
    · rename_i h _; exact absurd rfl h
    · rename_i h; exact absurd rfl (h _)
    · rfl

theorem ncluster_ps (n : Nat) : nsCluster .pretty false (List.replicate (n + 1) 'p') = some (List.replicate (n + 2) .pretty, .done) := by
  induction n with
  | zero => decide +kernel
  | succ n ih =>
    rw [List.replicate_succ, ncluster_p (by simp) (by simp [List.replicate_succ]), ih]
    rfl

theorem ncluster_psv {o' : NsOpt} {c : Char} {x : List Char} (hc : nsExact ['-', c] = some o') (hv : o'.takesValue = true) (n : Nat) :
    nsCluster .pretty false (List.replicate n 'p' ++ c :: x) = some (List.replicate (n + 1) .pretty, nsEndOf o' x) := by
  induction n with
  | zero => exact ncluster_value hc hv
  | succ n ih =>
    rw [List.replicate_succ, List.cons_append, ncluster_p (by simp) ?_, ih]
    · rfl
    · cases n with
      | zero => simpa using (nexact_value hc).2
      | succ n => simp [List.replicate_succ]

theorem ncluster_eq (o : NsOpt) (x : List Char) : nsCluster o true x = none := by
  cases x <;> simp [nsCluster]

theorem ncluster_inv {o : NsOpt} {x : List Char} {os : List NsOpt} {e : NsEnd} (h : nsCluster o false x = some (os, e))
    (hl : e ≠ .left) (hh : .help ∉ os) :
    ∃ n, os = o :: List.replicate n .pretty ∧
      (e = .done ∧ n ≠ 0 ∧ x = List.replicate n 'p' ∨
        ∃ c o' y, nsExact ['-', c] = some o' ∧ o'.takesValue = true ∧ x = List.replicate n 'p' ++ c :: y ∧ e = nsEndOf o' y) := by
  induction x generalizing o os with
  | nil => simp [nsCluster] at h
  | cons c cs ih =>
    have h0 := h
    rw [nsCluster.eq_def] at h
    dsimp only at h
    simp only [Bool.false_or] at h
    split at h
    · cases h
    · split at h
      · simp only [Option.some.injEq, Prod.mk.injEq] at h
        exact absurd h.2.symm hl
      · rename_i o' ho'
        by_cases hv : o'.takesValue = true
        · have : some ([o], nsEndOf o' cs) = some (os, e) := (ncluster_value ho' hv).symm.trans h0
          simp only [Option.some.injEq, Prod.mk.injEq] at this
          exact ⟨0, this.1.symm, Or.inr ⟨c, o', cs, ho', hv, rfl, this.2.symm⟩⟩
        · rw [if_neg hv] at h
          have hp : o' ≠ .help → c = 'p' ∧ o' = .pretty := by
            intro hne
            have h4 := nexact_short ho'
            simp only [List.mem_cons, Prod.mk.injEq, List.not_mem_nil, or_false] at h4
            rcases h4 with ⟨_, rfl⟩ | ⟨_, rfl⟩ | ⟨_, rfl⟩ | ⟨rfl, rfl⟩
            · exact absurd rfl hne
            · exact absurd rfl hv
            · exact absurd rfl hv
            · exact ⟨rfl, rfl⟩
          split at h
          · simp only [Option.some.injEq, Prod.mk.injEq] at h
            obtain ⟨rfl, rfl⟩ := h
            obtain ⟨rfl, rfl⟩ := hp (by rintro rfl; simp at hh)
            exact ⟨1, rfl, Or.inl ⟨rfl, by decide, rfl⟩⟩
          · cases h
          · obtain ⟨⟨os', e'⟩, hr, hre⟩ := Option.map_eq_some_iff.1 h
            simp only [Prod.mk.injEq] at hre
            obtain ⟨rfl, rfl⟩ := hre
            obtain ⟨n, hos, hx⟩ := ih hr (fun hx => hh (by simp [hx]))
            obtain ⟨rfl, rfl⟩ := hp (by rintro rfl; exact hh (by rw [hos]; simp))
            refine ⟨n + 1, by rw [hos]; rfl, ?_⟩
            rcases hx with ⟨he, hn, hx⟩ | ⟨c, o', y, h1, h2, hx, he⟩
            · exact Or.inl ⟨he, by simp, by rw [hx]; rfl⟩
            · exact Or.inr ⟨c, o', y, h1, h2, by rw [hx]; rfl, he⟩

/-! ## Whole command lines -/

/-- The state after one more setting. -/
def NsState.put (st : NsState) : NsSetting → NsState
  | .from_ v => { st with from_ := some v }
  | .to_ v => { st with to_ := some v }
  | .pretty => { st with pretty := true }

/-- The state with the file that is named. -/
def NsState.named (st : NsState) : Option String → NsState
  | none => st
  | some v => st.take v

theorem nput_take (st : NsState) (s : NsSetting) (v : String) : (st.take v).put s = (st.put s).take v := by
  cases s <;> rfl

theorem nfold_take (ss : List NsSetting) (st : NsState) (v : String) :
    ss.foldl NsState.put (st.take v) = (ss.foldl NsState.put st).take v := by
  induction ss generalizing st with
  | nil => rfl
  | cons s ss ih => rw [List.foldl_cons, nput_take, ih]; rfl

theorem nput_taken (st : NsState) (s : NsSetting) : (st.put s).taken = st.taken := by cases s <;> rfl

theorem nfold_taken (ss : List NsSetting) (st : NsState) : (ss.foldl NsState.put st).taken = st.taken := by
  induction ss generalizing st with
  | nil => rfl
  | cons s ss ih => rw [List.foldl_cons, ih, nput_taken]

theorem nswitch_ps (n : Nat) (st : NsState) :
    (List.replicate n NsOpt.pretty).foldl NsState.switch st = (List.replicate n NsSetting.pretty).foldl NsState.put st := by
  induction n generalizing st with
  | zero => rfl
  | succ n ih => rw [List.replicate_succ, List.replicate_succ, List.foldl_cons, List.foldl_cons, ih]; rfl

theorem nvalue_option {full : String} {c : Char} {mk : String → NsSetting} (h : (full, c, mk) ∈ nsValueOptions) :
    full ∈ nsLongNames ∧ ∃ o, (full.toList, o) ∈ nsOptNames ∧ nsExact ['-', c] = some o ∧ o.takesValue = true ∧
      ∀ (st : NsState) v, st.store o v = st.put (mk v) := by
  simp only [nsValueOptions, List.mem_cons, Prod.mk.injEq, List.not_mem_nil, or_false] at h
  rcases h with ⟨rfl, rfl, rfl⟩ | ⟨rfl, rfl, rfl⟩
  · exact ⟨by decide +kernel, .from_, by decide +kernel, by decide +kernel, rfl, fun _ _ => rfl⟩
  · exact ⟨by decide +kernel, .to_, by decide +kernel, by decide +kernel, rfl, fun _ _ => rfl⟩

theorem noption_long {full : String} {o : NsOpt} (hf : full ∈ nsLongNames) (hm : (full.toList, o) ∈ nsOptNames) :
    (full, o) ∈ [("--help", NsOpt.help), ("--from", .from_), ("--to", .to_), ("--pretty", .pretty)] := by
  have hu : ∀ x ∈ nsLongNames, ∀ e ∈ nsOptNames, x.toList = e.1 →
      (x, e.2) ∈ [("--help", NsOpt.help), ("--from", .from_), ("--to", .to_), ("--pretty", .pretty)] := by decide +kernel
  exact hu _ hf _ hm rfl

theorem noption_value {full : String} {o : NsOpt} (hf : full ∈ nsLongNames) (hm : (full.toList, o) ∈ nsOptNames)
    (ho : o.takesValue = true) : ∃ c mk, (full, c, mk) ∈ nsValueOptions ∧ ∀ (st : NsState) v, st.store o v = st.put (mk v) := by
  have := noption_long hf hm
  simp only [List.mem_cons, Prod.mk.injEq, List.not_mem_nil, or_false] at this
  rcases this with ⟨_, rfl⟩ | ⟨rfl, rfl⟩ | ⟨rfl, rfl⟩ | ⟨_, rfl⟩
  · cases ho
  · exact ⟨'f', .from_, by simp [nsValueOptions], fun _ _ => rfl⟩
  · exact ⟨'t', .to_, by simp [nsValueOptions], fun _ _ => rfl⟩
  · cases ho

theorem nletter_value {c : Char} {o : NsOpt} (h : nsExact ['-', c] = some o) (ho : o.takesValue = true) :
    ∃ full mk, (full, c, mk) ∈ nsValueOptions ∧ ∀ (st : NsState) v, st.store o v = st.put (mk v) := by
  have := nexact_short h
  simp only [List.mem_cons, Prod.mk.injEq, List.not_mem_nil, or_false] at this
  rcases this with ⟨_, rfl⟩ | ⟨rfl, rfl⟩ | ⟨rfl, rfl⟩ | ⟨_, rfl⟩
  · cases ho
  · exact ⟨"--from", .from_, by simp [nsValueOptions], fun _ _ => rfl⟩
  · exact ⟨"--to", .to_, by simp [nsValueOptions], fun _ _ => rfl⟩
  · cases ho

theorem nstanding_ne {neg : String → Bool} {v : String} (h : NsStanding neg v) : v ≠ "--" := by
  rintro rfl
  rcases h with h | h | h
  · exact absurd h (by decide +kernel)
  · exact absurd h (by decide +kernel)
  · refine h.2.1 (List.prefix_refl _) "--help" (by decide +kernel) ?_
    decide +kernel

theorem nabbrev_ne {p : List Char} {full : String} (h : NsAbbrev p full) : p ≠ ['-', '-'] := by
  rintro rfl
  exact absurd h.2.1 (by decide)

theorem nread_stop (neg : String → Bool) (s : String) : nsReadArg neg s ≠ some .stop := by
  intro h
  rcases nread_inv neg h with ⟨_, _, _, h, _⟩ | ⟨h, _⟩ | h <;> cases h

/-- Reading a string that is not `--`. -/
theorem nreads_cons {neg : String → Bool} {s : String} {t : NsTok} {rest : List String} {ts : List (String × NsTok)} (hs : s ≠ "--")
    (ht : nsReadArg neg s = some t) (hts : nsReadArgs neg rest = some ts) : nsReadArgs neg (s :: rest) = some ((s, t) :: ts) := by
  rw [nsReadArgs, if_neg hs, ht, hts]

/-- No `--` is read where none stands. -/
theorem nreads_stop {neg : String → Bool} {argv : List String} {ts : List (String × NsTok)} (h : nsReadArgs neg argv = some ts)
    (hd : "--" ∉ argv) : ∀ p ∈ ts, p.2 ≠ .stop := by
  induction argv generalizing ts with
  | nil => cases h; simp
  | cons s rest ih =>
    simp only [List.mem_cons, not_or] at hd
    rw [nsReadArgs, if_neg (Ne.symm hd.1)] at h
    split at h
    · rename_i t ts' ht hts'
      cases h
      intro p hp
      rcases List.mem_cons.1 hp with rfl | hp
      · intro he
        exact nread_stop neg s (by rw [ht]; exact congrArg some he)
      · exact ih hts' hd.2 p hp
    · cases h

theorem nconsume_file {opens : String → Bool} {ts : List (String × NsTok)} {st : NsState} {v : String} {e : Bool}
    (hs : ∀ p ∈ ts, p.2 ≠ .stop) (ht : st.taken = false) (ho : opens v = true) :
    nsConsume opens ((v, .plain) :: ts) st e = nsConsume opens ts (st.take v) e := by
  rw [nsConsume.eq_def]
  dsimp only
  rw [if_neg (by rw [ht]; decide), if_pos ho]
  split
  · exact absurd rfl (hs _ List.mem_cons_self)
  · rfl

theorem nspells_run {opens : String → Bool} {neg : String → Bool} {f : Option String} {ss : List NsSetting} {argv : List String}
    (h : NsSpells neg f ss argv) : ∃ ts, nsReadArgs neg argv = some ts ∧
      ∀ st : NsState, (∀ v, f = some v → st.taken = false ∧ opens v = true) → ("--" ∈ argv → st.taken = false) →
        nsConsume opens ts st false = nsFinish ((ss.foldl NsState.put st).named f) false := by
  induction h with
  | nil => exact ⟨[], rfl, fun _ _ _ => by rw [nsConsume]; rfl⟩
  | dashes =>
    refine ⟨[("--", .stop)], by rw [nsReadArgs, if_pos rfl]; rfl, fun st _ hd => ?_⟩
    rw [nsConsume, if_neg (by rw [hd (by simp)]; decide)]
    rfl
  | dashesFile v =>
    refine ⟨[("--", .stop), (v, .plain)], by rw [nsReadArgs, if_pos rfl]; rfl, fun st hf _ => ?_⟩
    rw [nsConsume, if_neg (by rw [(hf v rfl).1]; decide)]
    rw [if_pos (hf v rfl).2, nsConsume]
    rfl
  | @fileDashes v hv =>
    refine ⟨[(v, .plain), ("--", .stop)], ?_, fun st hf _ => ?_⟩
    · exact nreads_cons (nstanding_ne hv) (nread_standing neg hv) (by rw [nsReadArgs, if_pos rfl]; rfl)
    · rw [nsConsume, if_neg (by rw [(hf v rfl).1]; decide), if_pos (hf v rfl).2]
      rw [nsConsume]
      rfl
  | @file v ss argv hv hd _ ih =>
    obtain ⟨ts, hts, hrun⟩ := ih
    refine ⟨(v, .plain) :: ts, nreads_cons (nstanding_ne hv) (nread_standing neg hv) hts, fun st hf _ => ?_⟩
    rw [nconsume_file (nreads_stop hts hd) (hf v rfl).1 (hf v rfl).2, hrun _ (by simp) (fun h => absurd h hd), nfold_take]
    rfl
  | @joined p full c mk f ss argv v hm hp _ ih =>
    obtain ⟨ts, hts, hrun⟩ := ih
    obtain ⟨hf, o, ho, _, hv, hst⟩ := nvalue_option hm
    refine ⟨(String.ofList (p ++ '=' :: v.toList), .opt o false (some (true, v.toList))) :: ts, ?_, fun st h1 h2 => ?_⟩
    · refine nreads_cons (ofList_ne ?_) (nread_joined neg hp hf ho) hts
      intro he
      have : '=' ∈ ['-', '-'] := by rw [← he]; simp
      simp at this
    · rw [nsConsume, if_pos hv]
      dsimp only
      rw [hst, hrun _ (by rw [nput_taken]; exact h1) (by rw [nput_taken]; exact fun h => h2 (by simp [h])), String.ofList_toList]
      rfl
  | @apart p full c mk f v ss argv hm hp hvs _ ih =>
    obtain ⟨ts, hts, hrun⟩ := ih
    obtain ⟨hf, o, ho, _, hv, hst⟩ := nvalue_option hm
    refine ⟨(String.ofList p, .opt o false none) :: (v, .plain) :: ts, ?_, fun st h1 h2 => ?_⟩
    · exact nreads_cons (ofList_ne (nabbrev_ne hp)) (nread_abbrev neg hp hf ho)
        (nreads_cons (nstanding_ne hvs) (nread_standing neg hvs) hts)
    · rw [nsConsume, if_pos hv]
      rw [hst, hrun _ (by rw [nput_taken]; exact h1) (by rw [nput_taken]; exact fun h => h2 (by simp [h]))]
      rfl
  | @pretty p f ss argv hp _ ih =>
    obtain ⟨ts, hts, hrun⟩ := ih
    refine ⟨(String.ofList p, .opt .pretty false none) :: ts, ?_, fun st h1 h2 => ?_⟩
    · exact nreads_cons (ofList_ne (nabbrev_ne hp)) (nread_abbrev neg hp (by decide +kernel) (by decide +kernel)) hts
    · rw [nsConsume.eq_def]
      dsimp only
      rw [if_neg (by decide), if_neg (by decide)]
      exact hrun (st.put .pretty) (by rw [nput_taken]; exact h1) (by rw [nput_taken]; exact fun h => h2 (by simp [h]))
  | @short f ss argv n _ ih =>
    obtain ⟨ts, hts, hrun⟩ := ih
    refine ⟨(String.ofList ('-' :: List.replicate (n + 1) 'p'), .opt .pretty true (nsAttach (List.replicate n 'p'))) :: ts, ?_,
      fun st h1 h2 => ?_⟩
    · exact nreads_cons (ofList_ne (by simp [List.replicate_succ])) (nread_short neg nexact_p (by rw [String.toList_ofList]; rfl)) hts
    · have hgo := hrun ((List.replicate (n + 1) NsSetting.pretty).foldl NsState.put st) (by rw [nfold_taken]; exact h1)
        (by rw [nfold_taken]; exact fun h => h2 (by simp [h]))
      rw [List.foldl_append, ← hgo]
      rw [nsConsume.eq_def]
      dsimp only
      rw [if_neg (by decide)]
      cases n with
      | zero => rfl
      | succ n =>
        rw [List.replicate_succ, nsAttach_cons (by decide), ← List.replicate_succ]
        dsimp only
        rw [if_pos rfl, ncluster_ps]
        dsimp only
        rw [if_neg (by simp), nswitch_ps]
  | @shortJoined full c mk f x v ss argv n hm hx _ ih =>
    obtain ⟨ts, hts, hrun⟩ := ih
    obtain ⟨_, o, _, hc, hv, hst⟩ := nvalue_option hm
    have hend : nsEndOf o x = .value o v.toList ∧ ∃ b, nsAttach x = some (b, v.toList) := by
      rcases hx with rfl | ⟨rfl, hne, he⟩
      · exact ⟨rfl, true, rfl⟩
      · match hvl : v.toList, hne, he with
        | d :: r, _, he =>
          have hd : d ≠ '=' := by simpa using he
          refine ⟨?_, false, nsAttach_cons hd⟩
          unfold nsEndOf
          split
          · rename_i h'; cases h'
          · rename_i h'; simp only [List.cons.injEq] at h'; exact absurd h'.1 hd
          · rfl
    cases n with
    | zero =>
      obtain ⟨b, hb⟩ := hend.2
      refine ⟨(String.ofList ('-' :: c :: x), .opt o true (nsAttach x)) :: ts, ?_, fun st h1 h2 => ?_⟩
      · exact nreads_cons (ofList_ne (by simp [(nexact_value hc).1])) (nread_short neg hc (by rw [String.toList_ofList]; rfl)) hts
      · rw [hb, nsConsume, if_pos hv]
        dsimp only
        rw [hst, hrun _ (by rw [nput_taken]; exact h1) (by rw [nput_taken]; exact fun h => h2 (by simp [h])), String.ofList_toList]
        rfl
    | succ n =>
      refine ⟨(String.ofList ('-' :: (List.replicate (n + 1) 'p' ++ c :: x)),
        .opt .pretty true (nsAttach (List.replicate n 'p' ++ c :: x))) :: ts, ?_, fun st h1 h2 => ?_⟩
      · exact nreads_cons (ofList_ne (by simp [List.replicate_succ]))
          (nread_short neg nexact_p (by rw [String.toList_ofList]; rfl)) hts
      · have hgo := hrun (((List.replicate (n + 1) NsSetting.pretty).foldl NsState.put st).put (mk v))
          (by rw [nput_taken, nfold_taken]; exact h1) (by rw [nput_taken, nfold_taken]; exact fun h => h2 (by simp [h]))
        rw [List.foldl_append, List.foldl_cons, ← hgo]
        rw [nsConsume.eq_def]
        dsimp only
        rw [if_neg (by decide)]
        have hat : nsAttach (List.replicate n 'p' ++ c :: x) = some (false, List.replicate n 'p' ++ c :: x) := by
          cases n with
          | zero => exact nsAttach_cons (nexact_value hc).2
          | succ n => exact nsAttach_cons (by decide)
        rw [hat]
        dsimp only
        rw [if_pos rfl, ncluster_psv hc hv, hend.1]
        dsimp only
        rw [if_neg (by simp), nswitch_ps, hst, String.ofList_toList]
  | @shortApart full c mk f v ss argv n hm hvs _ ih =>
    obtain ⟨ts, hts, hrun⟩ := ih
    obtain ⟨_, o, _, hc, hv, hst⟩ := nvalue_option hm
    have hvr := nreads_cons (nstanding_ne hvs) (nread_standing neg hvs) hts
    cases n with
    | zero =>
      refine ⟨(String.ofList ['-', c], .opt o true none) :: (v, .plain) :: ts, ?_, fun st h1 h2 => ?_⟩
      · exact nreads_cons (ofList_ne (by simp [(nexact_value hc).1])) (nread_short neg hc (x := []) (by rw [String.toList_ofList]; rfl)) hvr
      · rw [nsConsume, if_pos hv]
        rw [hst, hrun _ (by rw [nput_taken]; exact h1) (by rw [nput_taken]; exact fun h => h2 (by simp [h]))]
        rfl
    | succ n =>
      refine ⟨(String.ofList ('-' :: (List.replicate (n + 1) 'p' ++ [c])),
        .opt .pretty true (nsAttach (List.replicate n 'p' ++ [c]))) :: (v, .plain) :: ts, ?_, fun st h1 h2 => ?_⟩
      · exact nreads_cons (ofList_ne (by simp [List.replicate_succ]))
          (nread_short neg nexact_p (by rw [String.toList_ofList]; rfl)) hvr
      · have hgo := hrun (((List.replicate (n + 1) NsSetting.pretty).foldl NsState.put st).put (mk v))
          (by rw [nput_taken, nfold_taken]; exact h1) (by rw [nput_taken, nfold_taken]; exact fun h => h2 (by simp [h]))
        rw [List.foldl_append, List.foldl_cons, ← hgo]
        rw [nsConsume.eq_def]
        dsimp only
        rw [if_neg (by decide)]
        have hat : nsAttach (List.replicate n 'p' ++ [c]) = some (false, List.replicate n 'p' ++ [c]) := by
          cases n with
          | zero => exact nsAttach_cons (nexact_value hc).2
          | succ n => exact nsAttach_cons (by decide)
        rw [hat]
        dsimp only
        rw [if_pos rfl, ncluster_psv hc hv]
        show (if .help ∈ List.replicate (n + 1) NsOpt.pretty then _ else _) = _
        rw [if_neg (by simp), nswitch_ps, hst]

theorem nconsume_extra (opens : String → Bool) (ts : List (String × NsTok)) (st : NsState) (a : NsArgs) :
    nsConsume opens ts st true ≠ .args a := by
  have hfin : ∀ st, nsFinish st true ≠ .args a := by
    intro st
    unfold nsFinish
    split <;> simp
  induction hn : ts.length using Nat.strongRecOn generalizing ts st with
  | ind n ih =>
    subst hn
    match ts with
    | [] => rw [nsConsume]; exact hfin st
    | (v, .plain) :: rest =>
      rw [nsConsume.eq_def]
      dsimp only
      split
      · exact ih _ (by simp) _ _ rfl
      · split
        · split
          · exact ih _ (by simp; omega) _ _ rfl
          · exact ih _ (by simp) _ _ rfl
        · simp
    | (_, .stop) :: rest =>
      rw [nsConsume.eq_def]
      dsimp only
      split
      · exact ih _ (by simp) _ _ rfl
      · split
        · exact hfin st
        · split
          · exact ih _ (by simp; omega) _ _ rfl
          · simp
    | (_, .unknown) :: rest => rw [nsConsume]; exact ih _ (by simp) _ _ rfl
    | (_, .opt o short attached) :: rest =>
      rw [nsConsume.eq_def]
      dsimp only
      split
      · split
        · exact ih _ (by simp) _ _ rfl
        · exact ih _ (by simp; omega) _ _ rfl
        · simp
      · split
        · split
          · simp
          · exact ih _ (by simp) _ _ rfl
        · split
          · split
            · simp
            · split
              · simp
              · exact ih _ (by simp) _ _ rfl
            · split
              · simp
              · exact ih _ (by simp) _ _ rfl
            · split
              · simp
              · exact ih _ (by simp) _ _ rfl
            · split
              · split
                · simp
                · exact ih _ (by simp; omega) _ _ rfl
              · simp
          · simp

theorem nattach_none {x : List Char} (h : nsAttach x = none) : x = [] := by
  unfold nsAttach at h
  split at h
  · rfl
  · cases h
  · cases h

theorem nattach_some {x y : List Char} {b : Bool} (h : nsAttach x = some (b, y)) :
    Attached x (String.ofList y) ∧ (b = false → x = y) := by
  unfold nsAttach at h
  split at h
  · cases h
  · cases h; exact ⟨Or.inl (by rw [String.toList_ofList]), fun h => by cases h⟩
  · rename_i h1 h2
    cases h
    refine ⟨Or.inr ⟨by rw [String.toList_ofList], fun h => h1 h, ?_⟩, fun _ => rfl⟩
    intro hh
    match x, hh with
    | d :: r, hh =>
      have : d = '=' := by simpa using hh
      subst this
      exact h2 r rfl

theorem nend_value {o o' : NsOpt} {x y : List Char} (h : nsEndOf o x = .value o' y) : o' = o ∧ Attached x (String.ofList y) := by
  unfold nsEndOf at h
  split at h
  · cases h
  · cases h; exact ⟨rfl, Or.inl (by rw [String.toList_ofList])⟩
  · rename_i h1 h2
    cases h
    refine ⟨rfl, Or.inr ⟨by rw [String.toList_ofList], fun h => h1 h, ?_⟩⟩
    intro hh
    match x, hh with
    | d :: r, hh =>
      have : d = '=' := by simpa using hh
      subst this
      exact h2 r rfl

theorem nend_next {o o' : NsOpt} {x : List Char} (h : nsEndOf o x = .next o') : o' = o ∧ x = [] := by
  unfold nsEndOf at h
  split at h
  · cases h; exact ⟨rfl, rfl⟩
  · cases h
  · cases h

theorem nend_done {o : NsOpt} {x : List Char} (h : nsEndOf o x = .done) : False := by
  unfold nsEndOf at h
  split at h <;> cases h

theorem nlong_pretty {full : String} {o : NsOpt} (hf : full ∈ nsLongNames) (hm : (full.toList, o) ∈ nsOptNames)
    (ho : o.takesValue = false) (hh : o ≠ .help) : full = "--pretty" ∧ o = .pretty := by
  have := noption_long hf hm
  simp only [List.mem_cons, Prod.mk.injEq, List.not_mem_nil, or_false] at this
  rcases this with ⟨_, rfl⟩ | ⟨rfl, rfl⟩ | ⟨rfl, rfl⟩ | ⟨rfl, rfl⟩
  · exact absurd rfl hh
  · cases ho
  · cases ho
  · exact ⟨rfl, rfl⟩

theorem nletter_pretty {c : Char} {o : NsOpt} (h : nsExact ['-', c] = some o) (ho : o.takesValue = false) (hh : o ≠ .help) :
    c = 'p' ∧ o = .pretty := by
  have := nexact_short h
  simp only [List.mem_cons, Prod.mk.injEq, List.not_mem_nil, or_false] at this
  rcases this with ⟨_, rfl⟩ | ⟨rfl, rfl⟩ | ⟨rfl, rfl⟩ | ⟨rfl, rfl⟩
  · exact absurd rfl hh
  · cases ho
  · cases ho
  · exact ⟨rfl, rfl⟩

/-- Reading a command line apart. -/
theorem nreads_inv {neg : String → Bool} {s : String} {rest : List String} {ts : List (String × NsTok)}
    (h : nsReadArgs neg (s :: rest) = some ts) :
    s = "--" ∧ ts = (s, .stop) :: rest.map (fun r => (r, .plain)) ∨
      s ≠ "--" ∧ ∃ t ts', nsReadArg neg s = some t ∧ nsReadArgs neg rest = some ts' ∧ ts = (s, t) :: ts' := by
  rw [nsReadArgs] at h
  split at h
  · cases h; exact Or.inl ⟨‹_›, rfl⟩
  · split at h
    · cases h; exact Or.inr ⟨‹_›, _, _, ‹_›, ‹_›, rfl⟩
    · cases h

/-- The next argument is a plain one. -/
theorem nreads_plain {neg : String → Bool} {rest : List String} {v : String} {ts : List (String × NsTok)}
    (h : nsReadArgs neg rest = some ((v, .plain) :: ts)) :
    ∃ rest', rest = v :: rest' ∧ v ≠ "--" ∧ NsStanding neg v ∧ nsReadArgs neg rest' = some ts := by
  match rest, h with
  | [], h => cases h
  | s :: rest', h =>
    rcases nreads_inv h with ⟨_, h⟩ | ⟨hs, t, ts', ht, hts', h⟩
    · cases h
    · cases h
      rcases nread_inv neg ht with ⟨_, _, _, h, _⟩ | ⟨_, h⟩ | h
      · cases h
      · exact ⟨rest', rfl, hs, h, hts'⟩
      · cases h

/-- Plain arguments after the file are left over. -/
theorem nconsume_plain {opens : String → Bool} {rest : List String} {st : NsState} {a : NsArgs} (ht : st.taken = true)
    (h : nsConsume opens (rest.map (fun r => (r, .plain))) st false = .args a) : rest = [] := by
  match rest with
  | [] => rfl
  | v :: rest =>
    rw [List.map_cons, nsConsume.eq_def] at h
    dsimp only at h
    rw [if_pos ht] at h
    exact absurd h (nconsume_extra _ _ _ _)

theorem nrun_spells {opens : String → Bool} {neg : String → Bool} {argv : List String} {ts : List (String × NsTok)} {st : NsState}
    {a : NsArgs} (hr : nsReadArgs neg argv = some ts) (h : nsConsume opens ts st false = .args a) :
    ∃ f ss, NsSpells neg f ss argv ∧ (st.taken = true → f = none ∧ "--" ∉ argv) ∧ (∀ v, f = some v → opens v = true) ∧
      nsFinish ((ss.foldl NsState.put st).named f) false = .args a := by
  induction hn : argv.length using Nat.strongRecOn generalizing argv ts st with
  | ind n ih =>
    subst hn
    match argv with
    | [] =>
      cases hr
      rw [nsConsume] at h
      exact ⟨none, [], .nil, fun _ => ⟨rfl, by simp⟩, by simp, h⟩
    | s :: rest =>
      have hsl : String.ofList s.toList = s := String.ofList_toList
      -- an option with everything that belongs to it
      have go : ∀ (rest' : List String) (ts' : List (String × NsTok)) (new : List NsSetting) (words : List String),
          s :: rest = words ++ rest' → words ≠ [] → "--" ∉ words →
          (∀ f ss, NsSpells neg f ss rest' → NsSpells neg f (new ++ ss) (words ++ rest')) →
          nsReadArgs neg rest' = some ts' → nsConsume opens ts' (new.foldl NsState.put st) false = .args a →
          ∃ f ss, NsSpells neg f ss (s :: rest) ∧ (st.taken = true → f = none ∧ "--" ∉ s :: rest) ∧ (∀ v, f = some v → opens v = true) ∧
            nsFinish ((ss.foldl NsState.put st).named f) false = .args a := by
        intro rest' ts' new words hw hne hnd hstep hts' hrun
        have hl : rest'.length < (s :: rest).length := by
          rw [hw, List.length_append]
          have := List.length_pos_iff.2 hne
          omega
        obtain ⟨f, ss, hsp, htk, hop, hfin⟩ := ih _ hl hts' hrun rfl
        refine ⟨f, new ++ ss, hw ▸ hstep f ss hsp, fun ht => ?_, hop, by rw [List.foldl_append]; exact hfin⟩
        obtain ⟨h1, h2⟩ := htk (by rw [nfold_taken]; exact ht)
        refine ⟨h1, ?_⟩
        rw [hw, List.mem_append, not_or]
        exact ⟨hnd, h2⟩
      rcases nreads_inv hr with ⟨rfl, rfl⟩ | ⟨hs, t, ts', ht, hts', rfl⟩
      · rw [nsConsume.eq_def] at h
        dsimp only at h
        split at h
        · exact absurd h (nconsume_extra _ _ _ _)
        · rename_i htk
          match rest, h with
          | [], h => exact ⟨none, [], .dashes, fun h => absurd h htk, by simp, h⟩
          | v :: rest, h =>
            simp only [List.map_cons] at h
            split at h
            · rename_i hop
              have := nconsume_plain rfl h
              subst this
              simp only [List.map_nil] at h
              rw [nsConsume] at h
              exact ⟨some v, [], .dashesFile v, fun h => absurd h htk, fun v' hv => by cases hv; exact hop, h⟩
            · cases h
      · rcases nread_inv neg ht with ⟨o, sh, at_, rfl, hform⟩ | ⟨rfl, hstand⟩ | rfl
        · rw [nsConsume.eq_def] at h
          dsimp only at h
          cases hov : o.takesValue with
          | true =>
            rw [if_pos hov] at h
            split at h
            · -- an attached value
              rename_i x
              cases hform with
              | @joined p x full _ hf hm hp hse =>
                obtain ⟨c, mk, hmk, hst⟩ := noption_value hf hm hov
                rw [hst] at h
                refine go rest ts' [mk (String.ofList x)] [s] rfl (by simp) (by simpa using Ne.symm hs) ?_ hts' h
                intro f ss hsp
                have := NsSpells.joined (String.ofList x) hmk hp hsp
                rw [String.toList_ofList, ← hse, hsl] at this
                exact this
              | @short c _ y _ hc hse ha =>
                obtain ⟨full, mk, hmk, hst⟩ := nletter_value hc hov
                rw [hst] at h
                refine go rest ts' [mk (String.ofList x.2)] [s] rfl (by simp) (by simpa using Ne.symm hs) ?_ hts' h
                intro f ss hsp
                have := NsSpells.shortJoined 0 hmk (nattach_some ha.symm).1 hsp
                simp only [List.replicate_zero, List.nil_append] at this
                rw [← hse, hsl] at this
                exact this
            · -- the value is the next argument
              rename_i v ts''
              obtain ⟨rest', rfl, hv, hvs, hts''⟩ := nreads_plain hts'
              generalize hat : (none : Option (Bool × List Char)) = at_ at hform
              cases hform with
              | @long full _ hf hm hp =>
                obtain ⟨c, mk, hmk, hst⟩ := noption_value hf hm hov
                rw [hst] at h
                refine go rest' ts'' [mk v] [s, v] rfl (by simp) (by simp [Ne.symm hs, Ne.symm hv]) ?_ hts'' h
                intro f ss hsp
                have := NsSpells.apart hmk hp hvs hsp
                rw [hsl] at this
                exact this
              | joined => cases hat
              | @short c _ y _ hc hse ha =>
                have := nattach_none (ha.symm.trans hat.symm)
                subst this
                obtain ⟨full, mk, hmk, hst⟩ := nletter_value hc hov
                rw [hst] at h
                refine go rest' ts'' [mk v] [s, v] rfl (by simp) (by simp [Ne.symm hs, Ne.symm hv]) ?_ hts'' h
                intro f ss hsp
                have := NsSpells.shortApart 0 hmk hvs hsp
                simp only [List.replicate_zero, List.nil_append] at this
                rw [← hse, hsl] at this
                exact this
            · cases h
          | false =>
            rw [if_neg (by rw [hov]; decide)] at h
            split at h
            · split at h
              · cases h
              · rename_i hoh
                generalize hat : (none : Option (Bool × List Char)) = at_ at hform
                cases hform with
                | @long full _ hf hm hp =>
                  obtain ⟨rfl, rfl⟩ := nlong_pretty hf hm hov hoh
                  refine go rest ts' [.pretty] [s] rfl (by simp) (by simpa using Ne.symm hs) ?_ hts' h
                  intro f ss hsp
                  have := NsSpells.pretty hp hsp
                  rw [hsl] at this
                  exact this
                | joined => cases hat
                | @short c _ y _ hc hse ha =>
                  have := nattach_none (ha.symm.trans hat.symm)
                  subst this
                  obtain ⟨rfl, rfl⟩ := nletter_pretty hc hov hoh
                  refine go rest ts' [.pretty] [s] rfl (by simp) (by simpa using Ne.symm hs) ?_ hts' h
                  intro f ss hsp
                  have := NsSpells.short 0 hsp
                  rw [show '-' :: List.replicate (0 + 1) 'p' = ['-', 'p'] from rfl, ← hse, hsl] at this
                  exact this
            · rename_i x
              split at h
              · rename_i hsh
                subst hsh
                generalize hat : some x = at_ at hform
                cases hform with
                | @short c _ y _ hc hse ha =>
                  obtain ⟨b, x⟩ := x
                  obtain ⟨hatt, hxy⟩ := nattach_some (ha.symm.trans hat.symm)
                  cases b with
                  | true => rw [ncluster_eq] at h; cases h
                  | false =>
                    have hxy := hxy rfl
                    subst hxy
                    dsimp only at h
                    split at h
                    · cases h
                    · rename_i os hcl
                      split at h
                      · cases h
                      · rename_i hh
                        obtain ⟨n, hos, ⟨_, hn, hy⟩ | ⟨_, _, _, _, _, _, he⟩⟩ := ncluster_inv hcl (by simp) hh
                        · obtain ⟨rfl, rfl⟩ := nletter_pretty hc hov (by rintro rfl; exact hh (by rw [hos]; simp))
                          rw [hos, ← List.replicate_succ, nswitch_ps] at h
                          refine go rest ts' (List.replicate (n + 1) .pretty) [s] rfl (by simp) (by simpa using Ne.symm hs) ?_ hts' h
                          intro f ss hsp
                          have := NsSpells.short n hsp
                          rw [List.replicate_succ (a := 'p'), ← hy, ← hse, hsl] at this
                          exact this
                        · exact (nend_done he.symm).elim
                    · split at h
                      · cases h
                      · exact absurd h (nconsume_extra _ _ _ _)
                    · rename_i os o' v hcl
                      split at h
                      · cases h
                      · rename_i hh
                        obtain ⟨n, hos, ⟨h', _, _⟩ | ⟨c', o'', z, hc', hv', hy, he⟩⟩ := ncluster_inv hcl (by simp) hh
                        · cases h'
                        · obtain ⟨rfl, hz⟩ := nend_value he.symm
                          obtain ⟨rfl, rfl⟩ := nletter_pretty hc hov (by rintro rfl; exact hh (by rw [hos]; simp))
                          obtain ⟨full, mk, hmk, hst⟩ := nletter_value hc' hv'
                          rw [hos, ← List.replicate_succ, nswitch_ps, hst] at h
                          refine go rest ts' (List.replicate (n + 1) .pretty ++ [mk (String.ofList v)]) [s] rfl (by simp)
                            (by simpa using Ne.symm hs) ?_ hts' (by rw [List.foldl_append]; exact h)
                          intro f ss hsp
                          have := NsSpells.shortJoined (n + 1) hmk hz hsp
                          rw [List.replicate_succ (a := 'p'), List.cons_append, ← hy, ← hse, hsl] at this
                          rw [List.append_assoc]
                          exact this
                    · rename_i os o' hcl
                      split at h
                      · rename_i v ts''
                        split at h
                        · cases h
                        · rename_i hh
                          obtain ⟨rest', rfl, hv, hvs, hts''⟩ := nreads_plain hts'
                          obtain ⟨n, hos, ⟨h', _, _⟩ | ⟨c', o'', z, hc', hv', hy, he⟩⟩ := ncluster_inv hcl (by simp) hh
                          · cases h'
                          · obtain ⟨rfl, rfl⟩ := nend_next he.symm
                            obtain ⟨rfl, rfl⟩ := nletter_pretty hc hov (by rintro rfl; exact hh (by rw [hos]; simp))
                            obtain ⟨full, mk, hmk, hst⟩ := nletter_value hc' hv'
                            rw [hos, ← List.replicate_succ, nswitch_ps, hst] at h
                            refine go rest' ts'' (List.replicate (n + 1) .pretty ++ [mk v]) [s, v] rfl (by simp)
                              (by simp [Ne.symm hs, Ne.symm hv]) ?_ hts'' (by rw [List.foldl_append]; exact h)
                            intro f ss hsp
                            have := NsSpells.shortApart (n + 1) hmk hvs hsp
                            rw [List.replicate_succ (a := 'p'), List.cons_append, ← hy, ← hse, hsl] at this
                            rw [List.append_assoc]
                            exact this
                      · cases h
              · cases h
        · -- the file
          rw [nsConsume.eq_def] at h
          dsimp only at h
          split at h
          · exact absurd h (nconsume_extra _ _ _ _)
          · rename_i htk
            split at h
            · rename_i hop
              split at h
              · rename_i x ts''
                match rest, hts' with
                | [], hts' => cases hts'
                | s' :: rest, hts' =>
                  rcases nreads_inv hts' with ⟨rfl, he⟩ | ⟨_, t, _, ht', _, he⟩
                  · cases he
                    have := nconsume_plain rfl h
                    subst this
                    simp only [List.map_nil] at h
                    rw [nsConsume] at h
                    exact ⟨some s, [], .fileDashes hstand, fun h => absurd h htk, fun v' hv => by cases hv; exact hop, h⟩
                  · cases he
                    exact absurd ht' (nread_stop _ _)
              · obtain ⟨f, ss, hsp, htk', _, hfin⟩ := ih _ (by simp) hts' h rfl
                obtain ⟨rfl, hd⟩ := htk' rfl
                refine ⟨some s, ss, .file hstand hd hsp, fun h => absurd h htk, fun v' hv => by cases hv; exact hop, ?_⟩
                rw [nfold_take] at hfin
                exact hfin
            · cases h
        · rw [nsConsume] at h
          exact absurd h (nconsume_extra _ _ _ _)

theorem nlast_put (g : NsSetting → Option String) (s : NsSetting) (ss : List NsSetting) (x : Option String) :
    ((ss.filterMap g).getLast?).or ((g s).or x) = (((s :: ss).filterMap g).getLast?).or x := by
  cases hf : g s with
  | none => rw [List.filterMap_cons_none hf]; rfl
  | some v =>
    rw [List.filterMap_cons_some hf, List.getLast?_cons]
    cases (ss.filterMap g).getLast? <;> rfl

theorem nfold_put (ss : List NsSetting) (st : NsState) :
    (ss.foldl NsState.put st).from_ = ((ss.filterMap NsSetting.from?).getLast?).or st.from_ ∧
    (ss.foldl NsState.put st).to_ = ((ss.filterMap NsSetting.to?).getLast?).or st.to_ ∧
    ((ss.foldl NsState.put st).pretty = true ↔ .pretty ∈ ss ∨ st.pretty = true) ∧
    (ss.foldl NsState.put st).file = st.file := by
  induction ss generalizing st with
  | nil => simp
  | cons s ss ih =>
    obtain ⟨h1, h2, h3, h4⟩ := ih (st.put s)
    rw [List.foldl_cons, h1, h2, h3, h4, ← nlast_put NsSetting.from? s, ← nlast_put NsSetting.to? s]
    cases s <;> simp [NsState.put, NsSetting.from?, NsSetting.to?]

theorem nfinish_asks (f : Option String) (ss : List NsSetting) (a : NsArgs) :
    nsFinish ((ss.foldl NsState.put {}).named f) false = .args a ↔ NsAsks f ss a := by
  obtain ⟨h1, h2, h3, h4⟩ := nfold_put ss {}
  generalize ss.foldl NsState.put {} = st at h1 h2 h3 h4
  simp only [Option.or_none, Bool.false_eq_true, or_false] at h1 h2 h3 h4
  have hf : (st.named f).from_ = st.from_ ∧ (st.named f).to_ = st.to_ ∧ (st.named f).pretty = st.pretty ∧ (st.named f).file = f := by
    cases f with
    | none => exact ⟨rfl, rfl, rfl, h4⟩
    | some v => exact ⟨rfl, rfl, rfl, rfl⟩
  unfold nsFinish
  rw [hf.1, hf.2.1, hf.2.2.1, hf.2.2.2]
  constructor
  · intro h
    split at h
    · rename_i x y hx hy
      simp only [Bool.false_eq_true, if_false, NsArgOut.args.injEq] at h
      subst h
      refine ⟨by rw [← h1, hx], by rw [← h2, hy], h3, fun v => ?_⟩
      dsimp only
      by_cases hd : f = some "-"
      · subst hd
        rw [if_pos rfl]
        simp only [reduceCtorEq, Option.some.injEq, false_iff, not_and]
        exact fun h hne => hne h.symm
      · rw [if_neg hd]
        constructor
        · rintro rfl
          exact ⟨rfl, fun h => hd (by rw [h])⟩
        · exact fun h => h.1
    · cases h
  · intro h
    rw [show st.from_ = some a.from_ from h1.trans h.from_, show st.to_ = some a.to_ from h2.trans h.to_]
    simp only [Bool.false_eq_true, if_false, NsArgOut.args.injEq]
    have e3 : st.pretty = a.pretty := Bool.eq_iff_iff.2 (h3.trans h.pretty.symm)
    have e4 : (if f = some "-" then none else f) = a.file := by
      have := h.file
      cases ha : a.file with
      | some v =>
        obtain ⟨rfl, hv⟩ := (this v).1 ha
        rw [if_neg (by simpa using hv)]
      | none =>
        cases f with
        | none => rfl
        | some v =>
          by_cases hv : v = "-"
          · rw [if_pos (by rw [hv])]
          · have := (this v).2 ⟨rfl, hv⟩
            rw [ha] at this; cases this
    rw [e3, e4]

/-! ## C67 -/

/-- **C67.**  The script accepts exactly the command lines that spell settings with both `from` and `to` among them and name at most
one file, which can be opened; and it takes from them what they ask for. -/
theorem C67_reads (opens neg : String → Bool) (argv : List String) (a : NsArgs) :
    nsParseArgs opens neg argv = .args a ↔
      ∃ f ss, NsSpells neg f ss argv ∧ NsAsks f ss a ∧ ∀ v, f = some v → opens v = true := by
  unfold nsParseArgs
  constructor
  · intro h
    cases hr : nsReadArgs neg argv with
    | none => rw [hr] at h; cases h
    | some ts =>
      rw [hr] at h
      obtain ⟨f, ss, hss, _, hop, hfin⟩ := nrun_spells hr h
      exact ⟨f, ss, hss, (nfinish_asks f ss a).1 hfin, hop⟩
  · rintro ⟨f, ss, hss, ha, hop⟩
    obtain ⟨ts, hts, hrun⟩ := nspells_run (opens := opens) hss
    rw [hts]
    exact (hrun {} (fun v hv => ⟨rfl, hop v hv⟩) (fun _ => rfl)).trans ((nfinish_asks f ss a).2 ha)

/-- Letters put together, an attached value, an abbreviation, a value given twice and the file in between. -/
theorem sample_nsspells (neg : String → Bool) :
    NsSpells neg (some "a.xml") [.from_ "x.txt", .pretty, .pretty, .to_ "stix1.2", .from_ "stix1.2.1"]
      ["-fx.txt", "a.xml", "-ppt", "stix1.2", "--fr=stix1.2.1"] :=
  .shortJoined (full := "--from") (c := 'f') (mk := .from_) (v := "x.txt") (x := "x.txt".toList) 0 (by simp [nsValueOptions])
    (Or.inr ⟨rfl, by decide +kernel, by decide +kernel⟩) <|
  .file (Or.inl (by decide +kernel)) (by decide +kernel) <|
  .shortApart (full := "--to") (c := 't') (mk := .to_) (v := "stix1.2") 2 (by simp [nsValueOptions]) (Or.inl (by decide +kernel)) <|
  .joined (p := "--fr".toList) (full := "--from") (c := 'f') (mk := .from_) "stix1.2.1" (by simp [nsValueOptions]) (by unfold NsAbbrev; decide +kernel) .nil

theorem sample_nsasks : NsAsks (some "a.xml") [.from_ "x.txt", .pretty, .pretty, .to_ "stix1.2", .from_ "stix1.2.1"]
    { from_ := "stix1.2.1", to_ := "stix1.2", pretty := true, file := some "a.xml" } :=
  ⟨rfl, rfl, by decide, fun v => by
    simp only [Option.some.injEq]
    exact ⟨fun h => ⟨h, by rw [← h]; decide⟩, fun h => h.1⟩⟩

example (opens neg : String → Bool) (h : opens "a.xml" = true) :
    nsParseArgs opens neg ["-fx.txt", "a.xml", "-ppt", "stix1.2", "--fr=stix1.2.1"] =
      .args { from_ := "stix1.2.1", to_ := "stix1.2", pretty := true, file := some "a.xml" } :=
  (C67_reads opens neg _ _).2 ⟨_, _, sample_nsspells neg, sample_nsasks, fun v hv => by cases hv; exact h⟩

/-- A `--` at the end is accepted directly after the file, not if the file comes earlier. -/
example (opens neg : String → Bool) (h : opens "x" = true) :
    (∃ a, nsParseArgs opens neg ["-fa", "-tb", "x", "--"] = .args a) ∧
      (match nsParseArgs (fun _ => true) (fun _ => false) ["x", "-fa", "-tb", "--"] with | .exit n => n == 2 | .args _ => false) = true := by
  refine ⟨⟨{ from_ := "a", to_ := "b", file := some "x" }, (C67_reads opens neg _ _).2
    ⟨some "x", [.from_ "a", .to_ "b"], ?_, ⟨rfl, rfl, by decide, fun v => ?_⟩, fun v hv => by cases hv; exact h⟩⟩, by decide +kernel⟩
  · exact .shortJoined (full := "--from") (c := 'f') (mk := .from_) (v := "a") (x := ['a']) 0 (by simp [nsValueOptions])
      (Or.inr ⟨by decide +kernel, by decide, by decide⟩) <|
      .shortJoined (full := "--to") (c := 't') (mk := .to_) (v := "b") (x := ['b']) 0 (by simp [nsValueOptions])
      (Or.inr ⟨by decide +kernel, by decide, by decide⟩) <| .fileDashes (Or.inl (by decide +kernel))
  · simp only [Option.some.injEq]
    exact ⟨fun h => ⟨h, by rw [← h]; decide⟩, fun h => h.1⟩

/-- What a file with a list of namespaces says: the two special names stand for the shipped lists, otherwise every line counts that,
without the space around it, is not empty and does not begin with `#`. -/
def ListOf (w : NsWorld) (name : String) (l : List String) : Prop :=
  name = "stix1.2" ∧ l = Tables.updateNs_12 ∨ name = "stix1.2.1" ∧ l = Tables.updateNs_121 ∨
    name ≠ "stix1.2" ∧ name ≠ "stix1.2.1" ∧ ∃ ls, w.lines name = some ls ∧ l = ls.filterMap nsLine

/-- The document the script works on. -/
def SourceOf (w : NsWorld) (f : Option String) (t : Node) : Prop :=
  (f = none ∨ f = some "-") ∧ w.stdin = some t ∨ ∃ v, f = some v ∧ v ≠ "-" ∧ w.docs v = some (some t)

theorem listOf_iff {w : NsWorld} {name : String} {l : List String} :
    ListOf w name l ↔ w.hasList name = true ∧ l = getNamespaceList (fun f => (w.lines f).getD []) name := by
  unfold ListOf NsWorld.hasList getNamespaceList
  by_cases h1 : name = "stix1.2"
  · subst h1
    simp
  · by_cases h2 : name = "stix1.2.1"
    · subst h2
      simp
    · rw [if_neg h1, if_neg h2]
      cases hl : w.lines name with
      | none => simp [h1, h2]
      | some ls => simp [h1, h2, hl]

theorem sourceOf_iff {w : NsWorld} {f : Option String} {ss : List NsSetting} {a : NsArgs} (ha : NsAsks f ss a) {t : Node} :
    SourceOf w f t ↔ w.tree a.file = some t := by
  have hfile := ha.file
  unfold SourceOf NsWorld.tree
  cases haf : a.file with
  | none =>
    have hno : ∀ v, f = some v → v = "-" := by
      intro v hv
      refine Classical.byContradiction (fun hne => ?_)
      have := (hfile v).2 ⟨hv, hne⟩
      rw [haf] at this; cases this
    dsimp only
    constructor
    · rintro (⟨_, h⟩ | ⟨v, hv, hne, _⟩)
      · exact h
      · exact absurd (hno v hv) hne
    · intro h
      refine Or.inl ⟨?_, h⟩
      cases hf : f with
      | none => exact Or.inl rfl
      | some v => exact Or.inr (by rw [hno v hf])
  | some v =>
    obtain ⟨rfl, hv⟩ := (hfile v).1 haf
    dsimp only
    constructor
    · rintro (⟨h | h, _⟩ | ⟨v', h, _, hd⟩)
      · cases h
      · simp only [Option.some.injEq] at h; exact absurd h hv
      · simp only [Option.some.injEq] at h; subst h; rw [hd]; rfl
    · intro h
      refine Or.inr ⟨v, rfl, hv, ?_⟩
      cases hd : w.docs v with
      | none => rw [hd] at h; cases h
      | some d => rw [hd] at h; cases d with
        | none => cases h
        | some d => cases h; rfl

/-- **C67.**  The script prints a document exactly if its command line spells settings with both `from` and `to` among them, the
document named (the standard input if none is, or if it is named `-`) and both lists can be read, and the update with the lists
succeeds; then it prints the updated document, pretty if that is asked for. -/
theorem C67_prints (w : NsWorld) (neg : String → Bool) (argv : List String) (t' : Node) (p : Bool) :
    nsProgram w neg argv = .printed t' p ↔
      ∃ f ss a, NsSpells neg f ss argv ∧ NsAsks f ss a ∧ p = a.pretty ∧
        ∃ t ls lt t1, SourceOf w f t ∧ ListOf w a.from_ ls ∧ ListOf w a.to_ lt ∧ updateFromLists t ls lt = .ok t1 ∧
          t' = specialCaseVersionUpdate a.to_ t1 := by
  unfold nsProgram
  constructor
  · intro h
    split at h
    · cases h
    · rename_i a hp
      obtain ⟨f, ss, hsp, ha, _⟩ := (C67_reads _ _ _ _).1 hp
      split at h
      · cases h
      · rename_i t ht
        split at h
        · rename_i hl
          simp only [Bool.and_eq_true] at hl
          split at h
          · cases h
          · rename_i t'' hu
            cases h
            unfold updateNsMain at hu
            split at hu
            · cases hu
            · rename_i t1 h1
              cases hu
              exact ⟨f, ss, a, hsp, ha, rfl, t, _, _, t1, (sourceOf_iff ha).2 ht, listOf_iff.2 ⟨hl.1, rfl⟩, listOf_iff.2 ⟨hl.2, rfl⟩,
                h1, rfl⟩
        · cases h
  · rintro ⟨f, ss, a, hsp, ha, rfl, t, ls, lt, t1, hsrc, hls, hlt, hu, rfl⟩
    have hop : ∀ v, f = some v → (v == "-" || (w.docs v).isSome) = true := by
      rintro v rfl
      rcases hsrc with ⟨h | h, _⟩ | ⟨v', h, _, hd⟩
      · cases h
      · simp only [Option.some.injEq] at h; simp [h]
      · simp only [Option.some.injEq] at h; subst h; simp [hd]
    rw [(C67_reads _ _ _ _).2 ⟨f, ss, hsp, ha, hop⟩]
    dsimp only
    rw [(sourceOf_iff ha).1 hsrc]
    obtain ⟨h1, rfl⟩ := listOf_iff.1 hls
    obtain ⟨h2, rfl⟩ := listOf_iff.1 hlt
    dsimp only
    rw [h1, h2]
    simp only [Bool.and_self, if_true]
    unfold updateNsMain
    rw [hu]

/-- An argument that asks for help. -/
def NsAsksHelp (s : String) : Prop :=
  NsAbbrev s.toList "--help" ∨ ∃ n r, s.toList = '-' :: List.replicate n 'p' ++ 'h' :: r

theorem ncluster_help {o : NsOpt} {x : List Char} {os : List NsOpt} {e : NsEnd} (h : nsCluster o false x = some (os, e))
    (hh : .help ∈ os) : o = .help ∨ ∃ n r, x = List.replicate n 'p' ++ 'h' :: r := by
  induction x generalizing o os with
  | nil => simp [nsCluster] at h
  | cons c cs ih =>
    have h0 := h
    rw [nsCluster.eq_def] at h
    dsimp only at h
    simp only [Bool.false_or] at h
    split at h
    · cases h
    · split at h
      · simp only [Option.some.injEq, Prod.mk.injEq] at h
        rw [← h.1] at hh
        exact Or.inl (List.mem_singleton.1 hh).symm
      · rename_i o' ho'
        by_cases hv : o'.takesValue = true
        · rw [ncluster_value ho' hv] at h0
          simp only [Option.some.injEq, Prod.mk.injEq] at h0
          rw [← h0.1] at hh
          exact Or.inl (List.mem_singleton.1 hh).symm
        · rw [if_neg hv] at h
          have h4 := nexact_short ho'
          simp only [List.mem_cons, Prod.mk.injEq, List.not_mem_nil, or_false] at h4
          rcases h4 with ⟨rfl, rfl⟩ | ⟨_, rfl⟩ | ⟨_, rfl⟩ | ⟨rfl, rfl⟩
          · exact Or.inr ⟨0, cs, rfl⟩
          · exact absurd rfl hv
          · exact absurd rfl hv
          · split at h
            · simp only [Option.some.injEq, Prod.mk.injEq] at h
              rw [← h.1] at hh
              simp only [List.mem_cons, List.not_mem_nil, or_false] at hh
              rcases hh with hh | hh
              · exact Or.inl hh.symm
              · cases hh
            · cases h
            · obtain ⟨⟨os', e'⟩, hr, hre⟩ := Option.map_eq_some_iff.1 h
              simp only [Prod.mk.injEq] at hre
              obtain ⟨rfl, rfl⟩ := hre
              rcases List.mem_cons.1 hh with hh | hh
              · exact Or.inl hh.symm
              · rcases ih hr hh with h | ⟨n, r, hx⟩
                · cases h
                · exact Or.inr ⟨n + 1, r, by rw [hx]; rfl⟩

theorem nfinish_status {st : NsState} {e : Bool} {n : Nat} (h : nsFinish st e = .exit n) : n = 2 := by
  unfold nsFinish at h
  split at h
  · split at h
    · cases h; rfl
    · cases h
  · cases h; rfl

theorem nconsume_status {opens : String → Bool} {ts : List (String × NsTok)} {st : NsState} {e : Bool} {n : Nat}
    (hts : ∀ p ∈ ts, ∀ o sh at_, p.2 = .opt o sh at_ → NsForm p.1.toList o sh at_)
    (h : nsConsume opens ts st e = .exit n) : n = 2 ∨ n = 0 ∧ ∃ p ∈ ts, NsAsksHelp p.1 := by
  induction hn : ts.length using Nat.strongRecOn generalizing ts st e with
  | ind k ih =>
    subst hn
    have go : ∀ (rest : List (String × NsTok)) st' e', rest.length < ts.length → (∀ p ∈ rest, p ∈ ts) →
        nsConsume opens rest st' e' = .exit n → n = 2 ∨ n = 0 ∧ ∃ p ∈ ts, NsAsksHelp p.1 := by
      intro rest st' e' hl hsub hr
      rcases ih _ hl (fun p hp => hts p (hsub p hp)) hr rfl with h | ⟨h, p, hp, hh⟩
      · exact Or.inl h
      · exact Or.inr ⟨h, p, hsub p hp, hh⟩
    match ts, hts, h, go with
    | [], _, h, _ => rw [nsConsume] at h; exact Or.inl (nfinish_status h)
    | (_, .plain) :: rest, _, h, go =>
      rw [nsConsume.eq_def] at h
      dsimp only at h
      split at h
      · exact go _ _ _ (by simp) (by simp +contextual) h
      · split at h
        · split at h
          · exact go _ _ _ (by simp; omega) (by simp +contextual) h
          · exact go _ _ _ (by simp) (by simp +contextual) h
        · cases h; exact Or.inl rfl
    | (_, .stop) :: rest, _, h, go =>
      rw [nsConsume.eq_def] at h
      dsimp only at h
      split at h
      · exact go _ _ _ (by simp) (by simp +contextual) h
      · split at h
        · exact Or.inl (nfinish_status h)
        · split at h
          · exact go _ _ _ (by simp; omega) (by simp +contextual) h
          · cases h; exact Or.inl rfl
    | (_, .unknown) :: rest, _, h, go => rw [nsConsume] at h; exact go _ _ _ (by simp) (by simp +contextual) h
    | (s, .opt o short attached) :: rest, hts, h, go =>
      have hform := hts _ (List.mem_cons_self) _ _ _ rfl
      dsimp only at hform
      have hclu : ¬ o.takesValue = true → ∀ x os e, attached = some x → short = true → nsCluster o x.1 x.2 = some (os, e) → .help ∈ os →
          ∃ p ∈ (s, NsTok.opt o short attached) :: rest, NsAsksHelp p.1 := by
        rintro hnv ⟨b, x⟩ os e rfl rfl hcl hhelp
        refine ⟨_, List.mem_cons_self, Or.inr ?_⟩
        generalize hat : some (b, x) = at_ at hform
        cases hform with
        | @short c _ y _ hc hs ha =>
          obtain ⟨_, hxy⟩ := nattach_some (ha.symm.trans hat.symm)
          cases b with
          | true => rw [ncluster_eq] at hcl; cases hcl
          | false =>
            have hxy := hxy rfl
            subst hxy
            rcases ncluster_help hcl hhelp with ho | ⟨n, r, hx⟩
            · subst ho
              have h4 := nexact_short hc
              simp only [List.mem_cons, Prod.mk.injEq, List.not_mem_nil, or_false, reduceCtorEq, and_false, and_true] at h4
              exact ⟨0, y, by rw [hs, h4]; rfl⟩
            · have hcp : c = 'p' ∨ c = 'h' := by
                have h4 := nexact_short hc
                simp only [List.mem_cons, Prod.mk.injEq, List.not_mem_nil, or_false] at h4
                rcases h4 with ⟨rfl, _⟩ | ⟨rfl, rfl⟩ | ⟨rfl, rfl⟩ | ⟨rfl, _⟩
                · exact Or.inr rfl
                · exact absurd rfl hnv
                · exact absurd rfl hnv
                · exact Or.inl rfl
              rcases hcp with rfl | rfl
              · exact ⟨n + 1, r, by rw [hs, show y = _ from hx]; rfl⟩
              · exact ⟨0, y, hs⟩
      rw [nsConsume.eq_def] at h
      dsimp only at h
      split at h
      · split at h
        · exact go _ _ _ (by simp) (by simp +contextual) h
        · exact go _ _ _ (by simp; omega) (by simp +contextual) h
        · cases h; exact Or.inl rfl
      · rename_i hnv
        split at h
        · split at h
          · rename_i ho
            cases h
            subst ho
            refine Or.inr ⟨rfl, _, List.mem_cons_self, ?_⟩
            generalize hat : (none : Option (Bool × List Char)) = at_ at hform
            cases hform with
            | long hf hm hp =>
              have := noption_long hf hm
              simp only [List.mem_cons, Prod.mk.injEq, List.not_mem_nil, or_false, reduceCtorEq, and_false, and_true] at this
              rw [this] at hp
              exact Or.inl hp
            | joined => cases hat
            | @short c _ y _ hc hs ha =>
              have := nattach_none (ha.symm.trans hat.symm)
              subst this
              have h4 := nexact_short hc
              simp only [List.mem_cons, Prod.mk.injEq, List.not_mem_nil, or_false, reduceCtorEq, and_false, and_true] at h4
              exact Or.inr ⟨0, [], by rw [hs, h4]; rfl⟩
          · exact go _ _ _ (by simp) (by simp +contextual) h
        · rename_i x
          split at h
          · rename_i hsh
            split at h
            · cases h; exact Or.inl rfl
            · rename_i os hcl
              split at h
              · rename_i hh
                cases h
                exact Or.inr ⟨rfl, hclu hnv _ _ _ rfl hsh hcl hh⟩
              · exact go _ _ _ (by simp) (by simp +contextual) h
            · rename_i os hcl
              split at h
              · rename_i hh
                cases h
                exact Or.inr ⟨rfl, hclu hnv _ _ _ rfl hsh hcl hh⟩
              · exact go _ _ _ (by simp) (by simp +contextual) h
            · rename_i os o' v hcl
              split at h
              · rename_i hh
                cases h
                exact Or.inr ⟨rfl, hclu hnv _ _ _ rfl hsh hcl hh⟩
              · exact go _ _ _ (by simp) (by simp +contextual) h
            · rename_i os o' hcl
              split at h
              · split at h
                · rename_i hh
                  cases h
                  exact Or.inr ⟨rfl, hclu hnv _ _ _ rfl hsh hcl hh⟩
                · exact go _ _ _ (by simp; omega) (by simp +contextual) h
              · cases h; exact Or.inl rfl
          · cases h; exact Or.inl rfl

theorem nreads_forms {neg : String → Bool} {argv : List String} {ts : List (String × NsTok)}
    (h : nsReadArgs neg argv = some ts) : (∀ p ∈ ts, p.1 ∈ argv) ∧
      ∀ p ∈ ts, ∀ o sh at_, p.2 = .opt o sh at_ → NsForm p.1.toList o sh at_ := by
  induction argv generalizing ts with
  | nil => cases h; simp
  | cons s rest ih =>
    rcases nreads_inv h with ⟨_, rfl⟩ | ⟨_, t, ts', ht, hts', rfl⟩
    · constructor
      · intro p hp
        rcases List.mem_cons.1 hp with rfl | hp
        · simp
        · obtain ⟨r, hr, rfl⟩ := List.mem_map.1 hp
          simp [hr]
      · intro p hp o sh at_ he
        rcases List.mem_cons.1 hp with rfl | hp
        · cases he
        · obtain ⟨r, hr, rfl⟩ := List.mem_map.1 hp
          cases he
    · obtain ⟨h1, h2⟩ := ih hts'
      constructor
      · intro p hp
        rcases List.mem_cons.1 hp with rfl | hp
        · simp
        · exact List.mem_cons_of_mem _ (h1 p hp)
      · intro p hp o sh at_ he
        rcases List.mem_cons.1 hp with rfl | hp
        · dsimp only at he ⊢
          subst he
          rcases nread_inv neg ht with ⟨_, _, _, he, hform⟩ | ⟨he, _⟩ | he
          · cases he; exact hform
          · cases he
          · cases he
        · exact h2 p hp o sh at_ he

/-- **C67.**  Any other command line ends the script before it reads a document: with status 2, or with status 0 if some argument asks
for help. -/
theorem C67_refuses (w : NsWorld) (neg : String → Bool) (argv : List String)
    (h : ∀ f ss a, NsSpells neg f ss argv → NsAsks f ss a → ∃ v, f = some v ∧ v ≠ "-" ∧ w.docs v = none) :
    nsProgram w neg argv = .exit 2 ∨ (∃ s ∈ argv, NsAsksHelp s) ∧ nsProgram w neg argv = .exit 0 := by
  unfold nsProgram
  cases hp : nsParseArgs (fun v => v == "-" || (w.docs v).isSome) neg argv with
  | args a =>
    obtain ⟨f, ss, hss, ha, hop⟩ := (C67_reads _ neg argv a).1 hp
    obtain ⟨v, rfl, hv, hd⟩ := h f ss a hss ha
    have := hop v rfl
    simp [hv, hd] at this
  | exit n =>
    dsimp only
    unfold nsParseArgs at hp
    cases hr : nsReadArgs neg argv with
    | none =>
      rw [hr] at hp
      cases hp
      exact Or.inl rfl
    | some ts =>
      rw [hr] at hp
      obtain ⟨h1, h2⟩ := nreads_forms hr
      rcases nconsume_status h2 hp with rfl | ⟨rfl, p, hmem, hh⟩
      · exact Or.inl rfl
      · exact Or.inr ⟨⟨p.1, h1 p hmem, hh⟩, rfl⟩

/-- A file that cannot be opened, a second file, and an option without value end with status 2; the hypothesis of `C67_refuses` for the
first. -/
example (w : NsWorld) (neg : String → Bool) (hw : w.docs "x" = none) :
    nsProgram w neg ["-fa", "-tb", "x"] = .exit 2 := by
  have hx : ∀ f ss a, NsSpells neg f ss ["-fa", "-tb", "x"] → NsAsks f ss a → ∃ v, f = some v ∧ v ≠ "-" ∧ w.docs v = none := by
    intro f ss a hs ha
    have hp := (C67_reads (fun _ => true) neg _ a).2 ⟨f, ss, hs, ha, fun _ _ => rfl⟩
    have hq : nsParseArgs (fun _ => true) neg ["-fa", "-tb", "x"] = .args { from_ := "a", to_ := "b", file := some "x" } :=
      (C67_reads _ neg _ _).2 ⟨some "x", [.from_ "a", .to_ "b"],
        .shortJoined (full := "--from") (c := 'f') (mk := .from_) (v := "a") (x := ['a']) 0 (by simp [nsValueOptions])
          (Or.inr ⟨by decide +kernel, by decide, by decide⟩) <|
        .shortJoined (full := "--to") (c := 't') (mk := .to_) (v := "b") (x := ['b']) 0 (by simp [nsValueOptions])
          (Or.inr ⟨by decide +kernel, by decide, by decide⟩) <| .file (Or.inl (by decide +kernel)) (by simp) .nil,
        ⟨rfl, rfl, by decide, fun v => by
          simp only [Option.some.injEq]
          exact ⟨fun h => ⟨h, by rw [← h]; decide⟩, fun h => h.1⟩⟩, fun _ _ => rfl⟩
    rw [hq] at hp
    cases hp
    obtain ⟨hf, _⟩ := (ha.file "x").1 rfl
    exact ⟨"x", hf, by decide, hw⟩
  rcases C67_refuses w neg _ hx with h | ⟨⟨s, hs, hh⟩, _⟩
  · exact h
  · exfalso
    simp only [List.mem_cons, List.not_mem_nil, or_false] at hs
    have key : ∀ s : String, s.toList.head? ≠ some '-' ∨ (s.toList.drop 1).head? = some 'f' ∨ (s.toList.drop 1).head? = some 't' →
        ¬ NsAsksHelp s := by
      rintro s hs (⟨hp, hl, _⟩ | ⟨n, r, hr⟩)
      · obtain ⟨q, hq⟩ := hp
        have h2 : "--help".toList = '-' :: '-' :: "help".toList := by decide +kernel
        rw [h2] at hq
        match hsl : s.toList with
        | [] => rw [hsl] at hl; simp at hl
        | [_] => rw [hsl] at hl; simp at hl
        | a :: b :: l =>
          rw [hsl] at hq hs
          simp only [List.cons_append, List.cons.injEq] at hq
          rw [hq.1, hq.2.1] at hs
          simp at hs
      · rw [hr] at hs
        cases n <;> simp [List.replicate_succ] at hs
    rcases hs with rfl | rfl | rfl
    · exact key _ (Or.inr (Or.inl (by decide +kernel))) hh
    · exact key _ (Or.inr (Or.inr (by decide +kernel))) hh
    · exact key _ (Or.inl (by decide +kernel)) hh

example : (match nsParseArgs (fun _ => true) (fun _ => false) ["-fa", "x", "-tb", "y"] with | .exit n => n == 2 | .args _ => false) = true ∧
    (match nsParseArgs (fun _ => true) (fun _ => false) ["-tb", "-pf", "--", "a"] with | .exit n => n == 2 | .args _ => false) = true ∧
    (match nsParseArgs (fun _ => true) (fun _ => false) ["-pph", "--to"] with | .exit n => n == 0 | .args _ => false) = true ∧
    (match nsParseArgs (fun _ => true) (fun _ => false) ["-phf"] with | .exit n => n == 2 | .args _ => false) = true := by
  decide +kernel

/-- The command line `-f … -t …`. -/
theorem nsspells_plain (neg : String → Bool) {x y : String} (hx : x.toList.head? ≠ some '-') (hy : y.toList.head? ≠ some '-') :
    NsSpells neg none [.from_ x, .to_ y] ["-f", x, "-t", y] :=
  .shortApart (full := "--from") (c := 'f') (mk := .from_) 0 (by simp [nsValueOptions]) (Or.inl hx) <|
  .shortApart (full := "--to") (c := 't') (mk := .to_) 0 (by simp [nsValueOptions]) (Or.inl hy) .nil

theorem nsasks_plain (x y : String) : NsAsks none [.from_ x, .to_ y] { from_ := x, to_ := y } :=
  ⟨rfl, rfl, by simp, fun v => by simp⟩

theorem nsProgram_plain {w : NsWorld} (neg : String → Bool) {x y : String} (hx : x = "stix1.2" ∨ x = "stix1.2.1")
    (hy : y = "stix1.2" ∨ y = "stix1.2.1") {t t' : Node} (hs : w.stdin = some t)
    (h : updateNsMain (fun f => (w.lines f).getD []) t x y = .ok t') : nsProgram w neg ["-f", x, "-t", y] = .printed t' false := by
  have hn : ∀ x : String, x = "stix1.2" ∨ x = "stix1.2.1" → x.toList.head? ≠ some '-' := by
    rintro x (rfl | rfl) <;> decide +kernel
  have hl : ∀ x : String, x = "stix1.2" ∨ x = "stix1.2.1" → w.hasList x = true := by
    rintro x (rfl | rfl) <;> simp [NsWorld.hasList]
  unfold updateNsMain at h
  split at h
  · cases h
  · rename_i t1 h1
    cases h
    exact (C67_prints w neg _ _ _).2 ⟨none, _, _, nsspells_plain neg (hn x hx) (hn y hy), nsasks_plain x y, rfl, t, _, _, t1,
      Or.inl ⟨Or.inl rfl, hs⟩, listOf_iff.2 ⟨hl x hx, rfl⟩, listOf_iff.2 ⟨hl y hy, rfl⟩, h1, rfl⟩

/-- C36 for two runs of the script, the second one reading what the first one printed.  Partial as `C36_partial`. -/
theorem C36_pipe_partial (w : NsWorld) (neg : String → Bool) (t : Node) (ha : AttrsOnce t) (hv : Avoids (oasis.map (·.2)) t) (hp : NoPI t)
    (hr : ∀ w, rootAttr t (.plain "version") = some w → w = "1.2") :
    ∃ t1 t2, nsProgram { w with stdin := some t } neg ["-f", "stix1.2", "-t", "stix1.2.1"] = .printed t1 false ∧
      nsProgram { w with stdin := some t1 } neg ["-f", "stix1.2.1", "-t", "stix1.2"] = .printed t2 false ∧ Like SameElem [] [] t t2 := by
  obtain ⟨t1, t2, h1, h2, h3⟩ := C36_up_partial (fun f => (w.lines f).getD []) t ha hv hp hr
  exact ⟨t1, t2, nsProgram_plain neg (Or.inl rfl) (Or.inr rfl) rfl h1, nsProgram_plain neg (Or.inr rfl) (Or.inl rfl) rfl h2, h3⟩

example (w : NsWorld) (neg : String → Bool) :
    ∃ t1 t2, nsProgram { w with stdin := some docTyped } neg ["-f", "stix1.2", "-t", "stix1.2.1"] = .printed t1 false ∧
      nsProgram { w with stdin := some t1 } neg ["-f", "stix1.2.1", "-t", "stix1.2"] = .printed t2 false ∧
      Like SameElem [] [] docTyped t2 := by
  refine C36_pipe_partial w neg docTyped ?_ (avoids_of (by decide +kernel)) ⟨⟨trivial, trivial⟩, trivial⟩ ?_
  · have : ∀ c ∈ docTyped.elems, (c.e.attrs.map (·.1)).Nodup := by decide +kernel
    exact this
  · intro w hw
    have : rootAttr docTyped (.plain "version") = some "1.2" := by decide +kernel
    rw [this] at hw; cases hw; rfl

end Ramrod
