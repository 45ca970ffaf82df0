import Verif.Args
import Verif.Samples
/-!
# C60: the command line says what the tool does
-/

namespace Ramrod

/-! ## What a command line says -/

/-- One thing a command line can ask for (help text of ramrod/scripts/ramrod_update.py:173-228). -/
inductive Setting where
  | infile (v : String)
  | outfile (v : String)
  | from_ (v : String)
  | to_ (v : String)
  | noVocab
  | noOptionals
  | force
  deriving DecidableEq

/-- The long option names. -/
def longNames : List String :=
  ["--help", "--infile", "--outfile", "--from", "--to", "--disable-vocab-update", "--disable-remove-optionals", "--force"]

/-- The options that take a value. -/
def valueOptions : List (String × (String → Setting)) :=
  [("--infile", .infile), ("--outfile", .outfile), ("--from", .from_), ("--to", .to_)]

/-- The options that do not. -/
def switches : List (String × Setting) :=
  [("--disable-vocab-update", .noVocab), ("--disable-remove-optionals", .noOptionals), ("--force", .force)]

/-- `p` is the option name `full` or a beginning of it that no other option name has. -/
def Abbrev (p : List Char) (full : String) : Prop :=
  p <+: full.toList ∧ 2 < p.length ∧ ∀ other ∈ longNames, p <+: other.toList → other = full

/-- `v` cannot be read as an option: what stands before the first `=` begins no long name, and neither `-h` nor `-f` begins
it. -/
def NoOption (v : String) : Prop :=
  ("--".toList <+: v.toList → ∀ full ∈ longNames, ¬ v.toList.takeWhile (· ≠ '=') <+: full.toList) ∧
    ¬ "-h".toList <+: v.toList ∧ ¬ "-f".toList <+: v.toList

/-- `v` may stand on its own as the value of an option: it does not begin with a dash, or is just a dash, or is a negative number
or contains a blank and cannot be read as an option. -/
def Standing (neg : String → Bool) (v : String) : Prop :=
  v.toList.head? ≠ some '-' ∨ v = "-" ∨ ((neg v = true ∨ ' ' ∈ v.toList) ∧ NoOption v)

/-- `Spells neg ss argv`: the strings `argv` are a way to write down the settings `ss`, one after another. -/
inductive Spells (neg : String → Bool) : List Setting → List String → Prop
  | nil : Spells neg [] []
  | joined {p full mk ss argv} (v : String) (hm : (full, mk) ∈ valueOptions) (hp : Abbrev p full) (h : Spells neg ss argv) :
      Spells neg (mk v :: ss) (String.ofList (p ++ '=' :: v.toList) :: argv)
  | apart {p full mk v ss argv} (hm : (full, mk) ∈ valueOptions) (hp : Abbrev p full) (hv : Standing neg v)
      (h : Spells neg ss argv) : Spells neg (mk v :: ss) (String.ofList p :: v :: argv)
  | switch {p full s ss argv} (hm : (full, s) ∈ switches) (hp : Abbrev p full) (h : Spells neg ss argv) :
      Spells neg (s :: ss) (String.ofList p :: argv)
  | short {ss argv} (n : Nat) (h : Spells neg ss argv) :
      Spells neg (.force :: ss) (String.ofList ('-' :: List.replicate (n + 1) 'f') :: argv)

/-- The values given to the options that take one. -/
def Setting.infile? : Setting → Option String | .infile v => some v | _ => none
@[inherit_doc Setting.infile?] def Setting.outfile? : Setting → Option String | .outfile v => some v | _ => none
@[inherit_doc Setting.infile?] def Setting.from? : Setting → Option String | .from_ v => some v | _ => none
@[inherit_doc Setting.infile?] def Setting.to? : Setting → Option String | .to_ v => some v | _ => none

/-- The arguments are what the settings ask for; of several values for one option the last counts. -/
structure Asks (ss : List Setting) (a : CliArgs) : Prop where
  infile : (ss.filterMap Setting.infile?).getLast? = some a.infile
  outfile : (ss.filterMap Setting.outfile?).getLast? = a.outfile
  from_ : (ss.filterMap Setting.from?).getLast? = a.from_
  to_ : (ss.filterMap Setting.to?).getLast? = a.to_
  noVocab : a.disableVocabUpdate = true ↔ .noVocab ∈ ss
  noOptionals : a.disableRemoveOptionals = true ↔ .noOptionals ∈ ss
  force : a.force = true ↔ .force ∈ ss

/-! ## The table of options -/

theorem opt_nodup : (optNames.map (·.1)).Nodup := by decide +kernel

theorem opt_shape : ∀ e ∈ optNames, "--".toList <+: e.1 ∧ 2 < e.1.length ∨ e = (['-', 'h'], .help) ∨ e = (['-', 'f'], .force) := by
  decide +kernel

theorem opt_noEq : ∀ e ∈ optNames, '=' ∉ e.1 := by decide +kernel

theorem opt_long : ∀ e ∈ optNames, "--".toList <+: e.1 → ∃ full ∈ longNames, full.toList = e.1 := by decide +kernel

theorem long_opt : ∀ full ∈ longNames, ∃ e ∈ optNames, full.toList = e.1 := by decide +kernel

theorem long_inj : ∀ x ∈ longNames, ∀ y ∈ longNames, x.toList = y.toList → x = y := by decide +kernel

theorem opt_key {e e' : List Char × Opt} (h : e ∈ optNames) (h' : e' ∈ optNames) (hk : e.1 = e'.1) : e = e' := by
  have key : ∀ (l : List (List Char × Opt)), (l.map (·.1)).Nodup → e ∈ l → e' ∈ l → e = e' := by
    intro l
    induction l with
    | nil => intro _ h _; cases h
    | cons a l ih =>
      intro hn h h'
      simp only [List.map_cons, List.nodup_cons] at hn
      rcases List.mem_cons.1 h with rfl | h1
      · rcases List.mem_cons.1 h' with rfl | h2
        · rfl
        · exact absurd (List.mem_map.2 ⟨e', h2, hk.symm⟩) hn.1
      · rcases List.mem_cons.1 h' with rfl | h2
        · exact absurd (List.mem_map.2 ⟨e, h1, hk⟩) hn.1
        · exact ih hn.2 h1 h2
  exact key _ opt_nodup h h'

theorem exact_some {p : List Char} {o : Opt} : optExact p = some o ↔ (p, o) ∈ optNames := by
  unfold optExact
  constructor
  · intro h
    obtain ⟨e, he, rfl⟩ := Option.map_eq_some_iff.1 h
    have h1 := List.find?_some he
    have h2 := List.mem_of_find?_eq_some he
    have h3 : e.1 = p := by simpa using h1
    rw [← h3]; exact h2
  · intro h
    cases hf : optNames.find? (fun e => e.1 == p) with
    | none =>
      have := List.find?_eq_none.1 hf _ h
      simp at this
    | some e =>
      have h1 : e.1 = p := by simpa using List.find?_some hf
      have h2 := List.mem_of_find?_eq_some hf
      have := opt_key h2 h h1
      rw [this]; rfl

theorem exact_none {p : List Char} : optExact p = none ↔ ∀ o, (p, o) ∉ optNames := by
  constructor
  · intro h o ho
    rw [exact_some.2 ho] at h; cases h
  · intro h
    cases he : optExact p with
    | none => rfl
    | some o => exact absurd (exact_some.1 he) (h o)

theorem short_long {p : List Char} (h : "--".toList <+: p) : optShort p = false := by
  obtain ⟨r, rfl⟩ := h
  show optShort ('-' :: '-' :: r) = false
  simp [optShort]

/-! ## Splitting at `=` -/

theorem partition_fst (s : List Char) : (partitionEq s).1 = s.takeWhile (· ≠ '=') := by
  induction s with
  | nil => rfl
  | cons c cs ih =>
    by_cases h : c = '='
    · simp [partitionEq, h]
    · simp [partitionEq, h, ih]

theorem partition_none {s : List Char} (h : (partitionEq s).2 = none) : (partitionEq s).1 = s := by
  induction s with
  | nil => rfl
  | cons c cs ih =>
    by_cases hc : c = '='
    · simp [partitionEq, hc] at h
    · simp only [partitionEq, if_neg hc] at h ⊢
      rw [ih h]

theorem partition_some {s x : List Char} (h : (partitionEq s).2 = some x) : s = (partitionEq s).1 ++ '=' :: x := by
  induction s with
  | nil => cases h
  | cons c cs ih =>
    by_cases hc : c = '='
    · simp only [partitionEq, if_pos hc, Option.some.injEq] at h ⊢
      rw [hc, h]; rfl
    · simp only [partitionEq, if_neg hc] at h ⊢
      rw [List.cons_append, ← ih h]

theorem partition_clean {p : List Char} (h : '=' ∉ p) : partitionEq p = (p, none) := by
  induction p with
  | nil => rfl
  | cons c cs ih =>
    simp only [List.mem_cons, not_or] at h
    simp only [partitionEq, if_neg (Ne.symm h.1), ih h.2]

theorem partition_joined {p x : List Char} (h : '=' ∉ p) : partitionEq (p ++ '=' :: x) = (p, some x) := by
  induction p with
  | nil => simp [partitionEq]
  | cons c cs ih =>
    simp only [List.mem_cons, not_or] at h
    simp only [List.cons_append, partitionEq, if_neg (Ne.symm h.1), ih h.2]

/-! ## Abbreviations -/

theorem prefix_dashes {p q : List Char} (hl : 2 ≤ p.length) (h : p <+: q) (hq : "--".toList <+: q) : "--".toList <+: p :=
  List.prefix_of_prefix_length_le hq h (by simpa using hl)

theorem dashes_head {q : List Char} (h : "--".toList <+: q) : ∃ r, q = '-' :: '-' :: r := by
  obtain ⟨r, rfl⟩ := h; exact ⟨r, rfl⟩

theorem long_dashes : ∀ full ∈ longNames, "--".toList <+: full.toList := by decide +kernel

theorem all_same {α : Type} {l : List α} {x : α} (hn : l.Nodup) (hx : x ∈ l) (h : ∀ y ∈ l, y = x) : l = [x] := by
  match l, hn, hx, h with
  | [], _, hx, _ => cases hx
  | [a], _, _, h => rw [h a (by simp)]
  | a :: b :: l, hn, _, h =>
    have h1 := h a (by simp)
    have h2 := h b (by simp)
    subst h1; subst h2
    simp at hn

theorem filter_unique {p : List Char} {full : String} {o : Opt} (h : Abbrev p full) (hf : full ∈ longNames)
    (hm : (full.toList, o) ∈ optNames) : optNames.filter (fun e => p.isPrefixOf e.1) = [(full.toList, o)] := by
  refine all_same ?_ ?_ ?_
  · exact List.Pairwise.filter _ (by decide +kernel : optNames.Nodup)
  · exact List.mem_filter.2 ⟨hm, by simpa using h.1⟩
  · intro e he
    obtain ⟨he, hp⟩ := List.mem_filter.1 he
    have hp : p <+: e.1 := by simpa using hp
    have hd : "--".toList <+: p := prefix_dashes (Nat.le_of_lt h.2.1) h.1 (long_dashes _ hf)
    obtain ⟨other, ho, hoe⟩ := opt_long e he (List.IsPrefix.trans hd hp)
    have := h.2.2 other ho (by rw [hoe]; exact hp)
    subst this
    exact opt_key he hm hoe.symm

theorem unique_filter {p : List Char} {e : List Char × Opt} (hd : "--".toList <+: p)
    (h : optNames.filter (fun e => p.isPrefixOf e.1) = [e]) :
    e ∈ optNames ∧ ∃ full ∈ longNames, full.toList = e.1 ∧ Abbrev p full := by
  have hmem : e ∈ optNames.filter (fun e => p.isPrefixOf e.1) := by rw [h]; simp
  obtain ⟨he, hp⟩ := List.mem_filter.1 hmem
  have hp : p <+: e.1 := by simpa using hp
  obtain ⟨full, hf, hfe⟩ := opt_long e he (List.IsPrefix.trans hd hp)
  refine ⟨he, full, hf, hfe, by rw [hfe]; exact hp, ?_, ?_⟩
  · apply Nat.lt_of_not_le
    intro hl
    have : p = "--".toList := by
      obtain ⟨r, rfl⟩ := hd
      have : r = [] := by
        have : r.length = 0 := by simp at hl; exact hl ▸ rfl
        exact List.eq_nil_of_length_eq_zero this
      simp [this]
    subst this
    have h8 : (optNames.filter (fun e => "--".toList.isPrefixOf e.1)).length = 1 := congrArg List.length h
    exact absurd h8 (by decide +kernel)
  · intro other ho hpo
    obtain ⟨e', he', hoe⟩ := long_opt other ho
    have : e' ∈ optNames.filter (fun e => p.isPrefixOf e.1) := List.mem_filter.2 ⟨he', by rw [← hoe]; simpa using hpo⟩
    rw [h] at this
    have := List.mem_singleton.1 this
    subst this
    exact long_inj _ ho _ hf (by rw [hoe, hfe])

theorem abbrev_noEq {p : List Char} {full : String} (h : Abbrev p full) (hf : full ∈ longNames) : '=' ∉ p := by
  obtain ⟨e, he, hfe⟩ := long_opt full hf
  intro hp
  exact opt_noEq e he (hfe ▸ h.1.subset hp)

/-! ## Reading one argument -/

theorem tuples_long {s : List Char} (hs : "--".toList <+: s) :
    optTuples s = (optNames.filter (fun e => (partitionEq s).1.isPrefixOf e.1)).map
      (fun e => .opt e.2 (optShort e.1) ((partitionEq s).2.map (fun x => (true, x)))) := by
  unfold optTuples
  rw [if_neg (by rw [short_long hs]; decide)]

theorem read_abbrev (neg : String → Bool) {p : List Char} {full : String} {o : Opt} (h : Abbrev p full) (hf : full ∈ longNames)
    (hm : (full.toList, o) ∈ optNames) : readArg neg (String.ofList p) = some (.opt o false none) := by
  have hd : "--".toList <+: p := prefix_dashes (Nat.le_of_lt h.2.1) h.1 (long_dashes _ hf)
  have hfil := filter_unique h hf hm
  have hne := abbrev_noEq h hf
  have ht : optTuples p = [.opt o false none] := by
    rw [tuples_long hd, partition_clean hne, hfil]
    simp [short_long (long_dashes _ hf)]
  have hl := h.2.1
  obtain ⟨r, hr⟩ := dashes_head hd
  unfold readArg
  rw [String.toList_ofList]
  generalize String.ofList p = sp
  subst hr
  dsimp only
  rw [partition_clean hne, ht]
  rw [if_neg (by decide)]
  cases he : optExact ('-' :: '-' :: r) with
  | none => simp
  | some o' =>
    have hmem := exact_some.1 he
    have : (('-' :: '-' :: r), o') ∈ optNames.filter (fun e => ('-' :: '-' :: r).isPrefixOf e.1) :=
      List.mem_filter.2 ⟨hmem, by simp⟩
    rw [hfil] at this
    have := List.mem_singleton.1 this
    simp only [Prod.mk.injEq] at this
    rw [this.2, short_long hd]

theorem read_joined (neg : String → Bool) {p x : List Char} {full : String} {o : Opt} (h : Abbrev p full)
    (hf : full ∈ longNames) (hm : (full.toList, o) ∈ optNames) :
    readArg neg (String.ofList (p ++ '=' :: x)) = some (.opt o false (some (true, x))) := by
  have hd : "--".toList <+: p := prefix_dashes (Nat.le_of_lt h.2.1) h.1 (long_dashes _ hf)
  have hds : "--".toList <+: p ++ '=' :: x := List.IsPrefix.trans hd (List.prefix_append _ _)
  have hfil := filter_unique h hf hm
  have hne := abbrev_noEq h hf
  have ht : optTuples (p ++ '=' :: x) = [.opt o false (some (true, x))] := by
    rw [tuples_long hds, partition_joined hne, hfil]
    simp [short_long (long_dashes _ hf)]
  have he : optExact (p ++ '=' :: x) = none := by
    apply exact_none.2
    intro o' ho'
    exact opt_noEq _ ho' (by simp)
  have hpart := partition_joined (x := x) hne
  unfold readArg
  rw [String.toList_ofList]
  generalize String.ofList (p ++ '=' :: x) = sp
  obtain ⟨r, hr⟩ := dashes_head hds
  rw [hr] at he ht hpart ⊢
  dsimp only
  rw [hpart, ht, if_neg (by decide), he]
  dsimp only
  rw [if_neg (by simp)]
  cases he2 : optExact p with
  | none => rfl
  | some o' =>
    have hmem := exact_some.1 he2
    have : (p, o') ∈ optNames.filter (fun e => p.isPrefixOf e.1) := List.mem_filter.2 ⟨hmem, by simp⟩
    rw [hfil] at this
    have := List.mem_singleton.1 this
    simp only [Prod.mk.injEq] at this
    dsimp only
    rw [this.2, short_long hd]

/-- The two single-dash options. -/
theorem exact_short {c : Char} {o : Opt} (h : optExact ['-', c] = some o) : c = 'h' ∧ o = .help ∨ c = 'f' ∧ o = .force := by
  rcases opt_shape _ (exact_some.1 h) with ⟨_, hl⟩ | h | h
  · simp at hl
  · simp only [Prod.mk.injEq, List.cons.injEq] at h; exact Or.inl ⟨h.1.2.1, h.2⟩
  · simp only [Prod.mk.injEq, List.cons.injEq] at h; exact Or.inr ⟨h.1.2.1, h.2⟩

/-- The forms in which an argument is taken for an option. -/
inductive OptForm (s : List Char) : Opt → Bool → Option (Bool × List Char) → Prop
  | long {full o} (hf : full ∈ longNames) (hm : (full.toList, o) ∈ optNames) (h : Abbrev s full) : OptForm s o false none
  | joined {p x full o} (hf : full ∈ longNames) (hm : (full.toList, o) ∈ optNames) (h : Abbrev p full)
      (hs : s = p ++ '=' :: x) : OptForm s o false (some (true, x))
  | short {c o} (h : c = 'h' ∧ o = .help ∨ c = 'f' ∧ o = .force) (hs : s = ['-', c]) : OptForm s o true none
  | shortEq {c o x} (h : c = 'h' ∧ o = .help ∨ c = 'f' ∧ o = .force) (hs : s = '-' :: c :: '=' :: x) :
      OptForm s o true (some (true, x))
  | cluster {c o x} (h : c = 'h' ∧ o = .help ∨ c = 'f' ∧ o = .force) (hs : s = '-' :: c :: x) (hx : x ≠ []) :
      OptForm s o true (some (false, x))

/-- An exact option name as a form. -/
theorem form_exact {s : List Char} {o : Opt} (h : (s, o) ∈ optNames) : OptForm s o (optShort s) none := by
  rcases opt_shape _ h with ⟨hd, hl⟩ | h | h
  · rw [short_long hd]
    obtain ⟨full, hf, hfe⟩ := opt_long _ h hd
    have hab : ∀ x ∈ longNames, ∀ y ∈ longNames, x.toList <+: y.toList → y = x := by decide +kernel
    refine .long hf (by rw [hfe]; exact h) ⟨by rw [hfe]; exact List.prefix_refl _, hl, ?_⟩
    intro other ho hp
    exact hab _ hf _ ho (by rw [hfe]; exact hp)
  · simp only [Prod.mk.injEq] at h
    rw [h.1, h.2]; exact .short (c := 'h') (Or.inl ⟨rfl, rfl⟩) rfl
  · simp only [Prod.mk.injEq] at h
    rw [h.1, h.2]; exact .short (c := 'f') (Or.inr ⟨rfl, rfl⟩) rfl

theorem short_head {s : List Char} (h : optShort s = true) : ¬ "--".toList <+: s := by
  intro hd
  rw [short_long hd] at h; cases h

theorem filter_short {c : Char} {o : Opt} (h : optExact ['-', c] = some o) :
    optNames.filter (fun e => e.1 == ['-', c]) = [(['-', c], o)] := by
  rcases exact_short h with ⟨rfl, rfl⟩ | ⟨rfl, rfl⟩ <;> decide +kernel

theorem tuples_short {c : Char} {r : List Char} (hc : c ≠ '-') (he : optExact ('-' :: c :: r) = none) :
    optTuples ('-' :: c :: r) =
      match optExact ['-', c] with
      | some o => [.opt o true (some (false, r))]
      | none => [] := by
  have hs : optShort ('-' :: c :: r) = true := by simp [optShort, hc]
  have hmap : optTuples ('-' :: c :: r) = (optNames.filter (fun e => e.1 == ['-', c])).map
      (fun e => .opt e.2 (optShort e.1) (some (false, r))) := by
    unfold optTuples
    rw [if_pos hs]
    have hno : ∀ e ∈ optNames, ('-' :: c :: r).isPrefixOf e.1 = false := by
      intro e hem
      cases hp : ('-' :: c :: r).isPrefixOf e.1 with
      | false => rfl
      | true =>
        have hp : '-' :: c :: r <+: e.1 := by simpa using hp
        rcases opt_shape e hem with ⟨hd, _⟩ | rfl | rfl
        · obtain ⟨q, hq⟩ := dashes_head hd
          rw [hq, List.cons_prefix_cons, List.cons_prefix_cons] at hp
          exact absurd hp.2.1 hc
        · rw [List.cons_prefix_cons, List.cons_prefix_cons, List.prefix_nil] at hp
          obtain ⟨_, rfl, rfl⟩ := hp
          exact absurd hem (exact_none.1 he _)
        · rw [List.cons_prefix_cons, List.cons_prefix_cons, List.prefix_nil] at hp
          obtain ⟨_, rfl, rfl⟩ := hp
          exact absurd hem (exact_none.1 he _)
    revert hno
    generalize optNames = l
    intro hno
    induction l with
    | nil => rfl
    | cons e l ih =>
      rw [List.filterMap_cons, ih (fun e he => hno e (by simp [he])), hno e (by simp)]
      by_cases h : e.1 = ['-', c]
      · simp [h]
      · simp [h]
  rw [hmap]
  cases ho : optExact ['-', c] with
  | some o =>
    rw [filter_short ho]
    simp [optShort, hc]
  | none =>
    rw [List.filter_eq_nil_iff.2]
    · rfl
    · intro e hem heq
      have : e.1 = ['-', c] := by simpa using heq
      exact exact_none.1 ho e.2 (this ▸ hem)

/-- How an argument is read, for an argument that begins with a dash and more. -/
theorem read_dash (neg : String → Bool) {s : String} {c : Char} {r : List Char} (hs : s.toList = '-' :: c :: r) :
    readArg neg s =
      match optExact ('-' :: c :: r) with
      | some o => some (.opt o (optShort ('-' :: c :: r)) none)
      | none =>
        match (partitionEq ('-' :: c :: r)).2, optExact (partitionEq ('-' :: c :: r)).1 with
        | some x, some o => some (.opt o (optShort (partitionEq ('-' :: c :: r)).1) (some (true, x)))
        | _, _ =>
          match optTuples ('-' :: c :: r) with
          | [t] => some t
          | _ :: _ :: _ => none
          | [] => if neg s then some .plain else if ' ' ∈ '-' :: c :: r then some .plain else some .unknown := by
  unfold readArg
  rw [hs]
  dsimp only
  rw [if_neg (by decide)]
  cases optExact ('-' :: c :: r) with
  | some o => rfl
  | none => simp only [reduceCtorEq, if_false]; rfl

theorem form_partition {s : List Char} {o : Opt} {x : List Char} (hp : (partitionEq s).2 = some x)
    (he : optExact (partitionEq s).1 = some o) : OptForm s o (optShort (partitionEq s).1) (some (true, x)) := by
  have hs := partition_some hp
  generalize (partitionEq s).1 = p at hs he ⊢
  have hf := form_exact (exact_some.1 he)
  generalize hsh : optShort p = sh at hf ⊢
  generalize hn : (none : Option (Bool × List Char)) = nn at hf
  cases hf with
  | long hf hm h => exact .joined hf hm h hs
  | short h hs' => exact .shortEq h (by rw [hs, hs']; rfl)
  | joined => cases hn
  | shortEq => cases hn
  | cluster => cases hn

/-- An argument taken for an option has one of the forms, one taken for a plain argument can stand on its own. -/
theorem read_inv (neg : String → Bool) {s : String} {t : ArgTok} (h : readArg neg s = some t) :
    (∃ o sh at_, t = .opt o sh at_ ∧ OptForm s.toList o sh at_) ∨ (t = .plain ∧ Standing neg s) ∨ t = .unknown := by
  match hs : s.toList with
  | [] =>
    unfold readArg at h
    rw [hs] at h
    cases h
    exact Or.inr (Or.inl ⟨rfl, Or.inl (by rw [hs]; simp)⟩)
  | [c] =>
    by_cases hc : c = '-'
    · subst hc
      have hse : s = "-" := String.toList_inj.1 (by rw [hs]; decide +kernel)
      unfold readArg at h
      rw [hs] at h
      have he : optExact ['-'] = none := by decide +kernel
      simp only [he] at h
      simp at h
      exact Or.inr (Or.inl ⟨h.symm, Or.inr (Or.inl hse)⟩)
    · unfold readArg at h
      rw [hs] at h
      simp [hc] at h
      exact Or.inr (Or.inl ⟨h.symm, Or.inl (by rw [hs]; simpa using hc)⟩)
  | c0 :: c :: r =>
    by_cases hc0 : c0 = '-'
    · subst hc0
      rw [read_dash neg hs] at h
      cases he : optExact ('-' :: c :: r) with
      | some o =>
        rw [he] at h
        cases h
        exact Or.inl ⟨_, _, _, rfl, form_exact (exact_some.1 he)⟩
      | none =>
        rw [he] at h
        dsimp only at h
        split at h
        · rename_i x o hx ho
          cases h
          exact Or.inl ⟨_, _, _, rfl, form_partition hx ho⟩
        · rename_i hno
          by_cases hc : c = '-'
          · subst hc
            have hd : "--".toList <+: '-' :: '-' :: r := ⟨r, rfl⟩
            have hdp : "--".toList <+: (partitionEq ('-' :: '-' :: r)).1 := by
              refine ⟨(partitionEq r).1, ?_⟩
              simp [partitionEq]
            rw [tuples_long hd] at h
            split at h
            · rename_i t' ht
              cases h
              obtain ⟨e, hfil, rfl⟩ := List.map_eq_singleton_iff.1 ht
              obtain ⟨hem, full, hf, hfe, hab⟩ := unique_filter hdp hfil
              refine Or.inl ⟨_, _, _, rfl, ?_⟩
              rw [← hfe, short_long (long_dashes _ hf)]
              cases hp : (partitionEq ('-' :: '-' :: r)).2 with
              | none =>
                rw [partition_none hp] at hab
                exact .long hf (by rw [hfe]; exact hem) hab
              | some x => exact .joined hf (by rw [hfe]; exact hem) hab (partition_some hp)
            · cases h
            · rename_i ht
              have hnil := List.map_eq_nil_iff.1 ht
              have hno : NoOption s := by
                refine ⟨fun _ full hf hp => ?_, ?_, ?_⟩
                · obtain ⟨e, hem, hfe⟩ := long_opt full hf
                  rw [hs, ← partition_fst] at hp
                  have := List.filter_eq_nil_iff.1 hnil e hem
                  rw [← hfe] at this
                  exact this (by simpa using hp)
                · rw [hs]; rintro ⟨q, hq⟩
                  have : '-' :: 'h' :: q = '-' :: '-' :: r := hq
                  simp at this
                · rw [hs]; rintro ⟨q, hq⟩
                  have : '-' :: 'f' :: q = '-' :: '-' :: r := hq
                  simp at this
              split at h
              · cases h; exact Or.inr (Or.inl ⟨rfl, Or.inr (Or.inr ⟨Or.inl ‹_›, hno⟩)⟩)
              · split at h
                · cases h; exact Or.inr (Or.inl ⟨rfl, Or.inr (Or.inr ⟨Or.inr (by rw [hs]; assumption), hno⟩)⟩)
                · cases h; exact Or.inr (Or.inr rfl)
          · rw [tuples_short hc he] at h
            cases ho : optExact ['-', c] with
            | some o =>
              rw [ho] at h
              cases h
              have hr : r ≠ [] := by
                rintro rfl
                rw [ho] at he; cases he
              exact Or.inl ⟨_, _, _, rfl, .cluster (exact_short ho) rfl hr⟩
            | none =>
              rw [ho] at h
              dsimp only at h
              have hch : c ≠ 'h' := by
                rintro rfl
                exact absurd ho (by decide +kernel)
              have hcf : c ≠ 'f' := by
                rintro rfl
                exact absurd ho (by decide +kernel)
              have hno : NoOption s := by
                refine ⟨fun hd => ?_, ?_, ?_⟩
                · obtain ⟨q, hq⟩ := dashes_head hd
                  rw [hs] at hq
                  simp only [List.cons.injEq] at hq
                  exact absurd hq.2.1 hc
                · rw [hs]; rintro ⟨q, hq⟩
                  have : '-' :: 'h' :: q = '-' :: c :: r := hq
                  simp only [List.cons.injEq] at this
                  exact hch this.2.1.symm
                · rw [hs]; rintro ⟨q, hq⟩
                  have : '-' :: 'f' :: q = '-' :: c :: r := hq
                  simp only [List.cons.injEq] at this
                  exact hcf this.2.1.symm
              split at h
              · cases h; exact Or.inr (Or.inl ⟨rfl, Or.inr (Or.inr ⟨Or.inl ‹_›, hno⟩)⟩)
              · split at h
                · cases h; exact Or.inr (Or.inl ⟨rfl, Or.inr (Or.inr ⟨Or.inr (by rw [hs]; assumption), hno⟩)⟩)
                · cases h; exact Or.inr (Or.inr rfl)
    · unfold readArg at h
      rw [hs] at h
      simp [hc0] at h
      exact Or.inr (Or.inl ⟨h.symm, Or.inl (by rw [hs]; simpa using hc0)⟩)

theorem read_standing (neg : String → Bool) {s : String} (h : Standing neg s) : readArg neg s = some .plain := by
  match hs : s.toList with
  | [] => unfold readArg; rw [hs]
  | [c] =>
    unfold readArg; rw [hs]
    by_cases hc : c = '-'
    · subst hc
      have he : optExact ['-'] = none := by decide +kernel
      simp [he]
    · simp [hc]
  | c0 :: c :: r =>
    by_cases hc0 : c0 = '-'
    · subst hc0
      rcases h with h | h | ⟨hsp, hno⟩
      · rw [hs] at h; simp at h
      · subst h
        have : ("-").toList.length = 1 := by decide +kernel
        rw [hs] at this; simp at this
      · have hname : ∀ o, (((partitionEq ('-' :: c :: r)).1, o) : List Char × Opt) ∉ optNames := by
          intro o ho
          rcases opt_shape _ ho with ⟨hd, _⟩ | h | h
          · obtain ⟨full, hf, hfe⟩ := opt_long _ ho hd
            refine hno.1 ?_ full hf ?_
            · rw [hs]
              cases hp : (partitionEq ('-' :: c :: r)).2 with
              | none => rw [partition_none hp] at hd; exact hd
              | some x => rw [partition_some hp]; exact List.IsPrefix.trans hd (List.prefix_append _ _)
            · rw [hs, ← partition_fst, hfe]; exact List.prefix_refl _
          · refine hno.2.1 ?_
            simp only [Prod.mk.injEq] at h
            rw [hs]
            show ['-', 'h'] <+: _
            cases hp : (partitionEq ('-' :: c :: r)).2 with
            | none => rw [← h.1, partition_none hp]; exact List.prefix_refl _
            | some x => rw [← h.1]; exact ⟨_, (partition_some hp).symm⟩
          · refine hno.2.2 ?_
            simp only [Prod.mk.injEq] at h
            rw [hs]
            show ['-', 'f'] <+: _
            cases hp : (partitionEq ('-' :: c :: r)).2 with
            | none => rw [← h.1, partition_none hp]; exact List.prefix_refl _
            | some x => rw [← h.1]; exact ⟨_, (partition_some hp).symm⟩
        have he1 : optExact (partitionEq ('-' :: c :: r)).1 = none := exact_none.2 hname
        have he : optExact ('-' :: c :: r) = none := by
          apply exact_none.2
          intro o ho
          have hne := opt_noEq _ ho
          have := hname o
          rw [partition_clean hne] at this
          exact this ho
        have ht : optTuples ('-' :: c :: r) = [] := by
          by_cases hc : c = '-'
          · subst hc
            have hd : "--".toList <+: '-' :: '-' :: r := ⟨r, rfl⟩
            rw [tuples_long hd, List.map_eq_nil_iff, List.filter_eq_nil_iff]
            intro e hem hp
            have hp : (partitionEq ('-' :: '-' :: r)).1 <+: e.1 := by simpa using hp
            have hde : "--".toList <+: e.1 := by
              refine List.IsPrefix.trans ⟨(partitionEq r).1, ?_⟩ hp
              simp [partitionEq]
            obtain ⟨full, hf, hfe⟩ := opt_long e hem hde
            exact hno.1 (by rw [hs]; exact hd) full hf (by rw [hs, ← partition_fst, hfe]; exact hp)
          · rw [tuples_short hc he]
            cases ho : optExact ['-', c] with
            | none => rfl
            | some o =>
              rcases exact_short ho with ⟨rfl, _⟩ | ⟨rfl, _⟩
              · exact absurd (by rw [hs]; exact ⟨r, rfl⟩) hno.2.1
              · exact absurd (by rw [hs]; exact ⟨r, rfl⟩) hno.2.2
        rw [read_dash neg hs, he]
        dsimp only
        rw [he1, ht]
        dsimp only
        rcases hsp with hn | hn
        · rw [if_pos hn]
          cases (partitionEq ('-' :: c :: r)).2 <;> rfl
        · rw [hs] at hn
          by_cases hg : neg s = true
          · rw [if_pos hg]
            cases (partitionEq ('-' :: c :: r)).2 <;> rfl
          · rw [if_neg hg, if_pos hn]
            cases (partitionEq ('-' :: c :: r)).2 <;> rfl
    · unfold readArg; rw [hs]
      simp [hc0]

/-! ## Runs of `-f` -/

theorem read_f (neg : String → Bool) : readArg neg (String.ofList ['-', 'f']) = some (.opt .force true none) := by
  rw [read_dash neg (c := 'f') (r := []) (by rw [String.toList_ofList])]
  have : optExact ['-', 'f'] = some .force := by decide +kernel
  rw [this]
  have : optShort ['-', 'f'] = true := by decide +kernel
  rw [this]

theorem read_ff (neg : String → Bool) (n : Nat) :
    readArg neg (String.ofList ('-' :: List.replicate (n + 2) 'f')) =
      some (.opt .force true (some (false, List.replicate (n + 1) 'f'))) := by
  have hs : (String.ofList ('-' :: List.replicate (n + 2) 'f')).toList = '-' :: 'f' :: List.replicate (n + 1) 'f' := by
    rw [String.toList_ofList]; rfl
  have hf : optExact ['-', 'f'] = some .force := by decide +kernel
  have he : optExact ('-' :: 'f' :: List.replicate (n + 1) 'f') = none := by
    apply exact_none.2
    intro o ho
    rcases opt_shape _ ho with ⟨hd, _⟩ | h | h
    · obtain ⟨q, hq⟩ := dashes_head hd
      simp at hq
    · simp at h
    · simp [List.replicate_succ] at h
  have hne : '=' ∉ '-' :: 'f' :: List.replicate (n + 1) 'f' := by
    intro h
    simp only [List.mem_cons, List.mem_replicate] at h
    rcases h with h | h | h
    · exact absurd h (by decide)
    · exact absurd h (by decide)
    · exact absurd h.2 (by decide)
  rw [read_dash neg hs, he]
  dsimp only
  rw [partition_clean hne, tuples_short (by decide) he, hf]

theorem cluster_f (n : Nat) : optCluster .force false (List.replicate (n + 1) 'f') = some (List.replicate (n + 2) .force, false) := by
  have hf : optExact ['-', 'f'] = some .force := by decide +kernel
  induction n with
  | zero => simp [optCluster, hf]
  | succ n ih =>
    rw [List.replicate_succ, List.replicate_succ]
    rw [List.replicate_succ] at ih
    unfold optCluster
    rw [hf]
    simp only [Bool.false_or]
    rw [if_neg (by decide)]
    show Option.map _ (optCluster .force false ('f' :: List.replicate n 'f')) = _
    rw [ih]
    rfl

theorem switch_forces (st : ArgState) (n : Nat) :
    (List.replicate (n + 1) Opt.force).foldl ArgState.switch st = { st with force := true } := by
  induction n generalizing st with
  | zero => rfl
  | succ n ih =>
    rw [List.replicate_succ, List.foldl_cons, ih]
    rfl

theorem cluster_inv {o : Opt} {x : List Char} {os : List Opt} (h : optCluster o false x = some (os, false))
    (hh : .help ∉ os) : o ∈ os ∧ ∃ n, x = List.replicate (n + 1) 'f' := by
  induction x generalizing o os with
  | nil => simp [optCluster] at h
  | cons c cs ih =>
    unfold optCluster at h
    simp only [Bool.false_or] at h
    split at h
    · cases h
    · split at h
      · simp at h
      · rename_i o' ho'
        split at h
        · simp only [Option.some.injEq, Prod.mk.injEq, and_true] at h
          subst h
          rcases exact_short ho' with ⟨rfl, rfl⟩ | ⟨rfl, rfl⟩
          · simp at hh
          · exact ⟨by simp, 0, rfl⟩
        · cases h
        · rename_i d ds hd
          obtain ⟨⟨os', more⟩, hr, hre⟩ := Option.map_eq_some_iff.1 h
          simp only [Prod.mk.injEq] at hre
          obtain ⟨rfl, rfl⟩ := hre
          have hh' : .help ∉ os' := fun hx => hh (by simp [hx])
          obtain ⟨ho, n, hn⟩ := ih hr hh'
          refine ⟨by simp, n + 1, ?_⟩
          rcases exact_short ho' with ⟨rfl, rfl⟩ | ⟨rfl, rfl⟩
          · exact absurd ho hh'
          · rw [hn]; rfl

/-! ## Whole command lines -/

/-- The state after one more setting. -/
def ArgState.put (st : ArgState) : Setting → ArgState
  | .infile v => { st with infile := some v }
  | .outfile v => { st with outfile := some v }
  | .from_ v => { st with from_ := some v }
  | .to_ v => { st with to_ := some v }
  | .noVocab => { st with noVocab := true }
  | .noOptionals => { st with noOptionals := true }
  | .force => { st with force := true }

theorem value_option {full : String} {mk : String → Setting} (h : (full, mk) ∈ valueOptions) :
    full ∈ longNames ∧ ∃ o, (full.toList, o) ∈ optNames ∧ o.takesValue = true ∧
      ∀ (st : ArgState) v, st.store o v = st.put (mk v) := by
  simp only [valueOptions, List.mem_cons, Prod.mk.injEq, List.not_mem_nil, or_false] at h
  rcases h with ⟨rfl, rfl⟩ | ⟨rfl, rfl⟩ | ⟨rfl, rfl⟩ | ⟨rfl, rfl⟩
  · exact ⟨by decide +kernel, .infile, by decide +kernel, rfl, fun _ _ => rfl⟩
  · exact ⟨by decide +kernel, .outfile, by decide +kernel, rfl, fun _ _ => rfl⟩
  · exact ⟨by decide +kernel, .from_, by decide +kernel, rfl, fun _ _ => rfl⟩
  · exact ⟨by decide +kernel, .to_, by decide +kernel, rfl, fun _ _ => rfl⟩

theorem switch_option {full : String} {s : Setting} (h : (full, s) ∈ switches) :
    full ∈ longNames ∧ ∃ o, (full.toList, o) ∈ optNames ∧ o.takesValue = false ∧ o ≠ .help ∧
      ∀ (st : ArgState), st.switch o = st.put s := by
  simp only [switches, List.mem_cons, Prod.mk.injEq, List.not_mem_nil, or_false] at h
  rcases h with ⟨rfl, rfl⟩ | ⟨rfl, rfl⟩ | ⟨rfl, rfl⟩
  · exact ⟨by decide +kernel, .noVocab, by decide +kernel, rfl, by decide, fun _ => rfl⟩
  · exact ⟨by decide +kernel, .noOptionals, by decide +kernel, rfl, by decide, fun _ => rfl⟩
  · exact ⟨by decide +kernel, .force, by decide +kernel, rfl, by decide, fun _ => rfl⟩

theorem option_value {full : String} {o : Opt} (hf : full ∈ longNames) (hm : (full.toList, o) ∈ optNames)
    (ho : o.takesValue = true) : ∃ mk, (full, mk) ∈ valueOptions ∧ ∀ (st : ArgState) v, st.store o v = st.put (mk v) := by
  have key : ∀ o full', full' ∈ longNames → (full'.toList, o) ∈ optNames → full ∈ longNames → (full.toList, o) ∈ optNames →
      o ≠ .force → o ≠ .help → full = full' := by
    intro o full' h1 h2 h3 h4 h5 h6
    have hu : ∀ x ∈ optNames, ∀ y ∈ optNames, x.2 = y.2 → x.2 ≠ .force → x.2 ≠ .help → x.1 = y.1 := by decide +kernel
    exact long_inj _ h3 _ h1 (hu _ h4 _ h2 rfl h5 h6)
  cases o with
  | infile =>
    have := key .infile "--infile" (by decide +kernel) (by decide +kernel) hf hm (by decide) (by decide)
    exact ⟨.infile, by rw [this]; simp [valueOptions], fun _ _ => rfl⟩
  | outfile =>
    have := key .outfile "--outfile" (by decide +kernel) (by decide +kernel) hf hm (by decide) (by decide)
    exact ⟨.outfile, by rw [this]; simp [valueOptions], fun _ _ => rfl⟩
  | from_ =>
    have := key .from_ "--from" (by decide +kernel) (by decide +kernel) hf hm (by decide) (by decide)
    exact ⟨.from_, by rw [this]; simp [valueOptions], fun _ _ => rfl⟩
  | to_ =>
    have := key .to_ "--to" (by decide +kernel) (by decide +kernel) hf hm (by decide) (by decide)
    exact ⟨.to_, by rw [this]; simp [valueOptions], fun _ _ => rfl⟩
  | help => cases ho
  | noVocab => cases ho
  | noOptionals => cases ho
  | force => cases ho

theorem option_switch {full : String} {o : Opt} (hf : full ∈ longNames) (hm : (full.toList, o) ∈ optNames)
    (ho : o.takesValue = false) (hh : o ≠ .help) : ∃ s, (full, s) ∈ switches ∧ ∀ (st : ArgState), st.switch o = st.put s := by
  have hu : ∀ x ∈ longNames, ∀ y ∈ longNames, ∀ e ∈ optNames, ∀ e' ∈ optNames, x.toList = e.1 → y.toList = e'.1 →
      e.2 = e'.2 → x = y := by decide +kernel
  have key : ∀ o full', full' ∈ longNames → (full'.toList, o) ∈ optNames → (full.toList, o) ∈ optNames → full = full' :=
    fun o full' h1 h2 h3 => hu _ hf _ h1 _ h3 _ h2 rfl rfl rfl
  cases o with
  | noVocab =>
    have := key .noVocab "--disable-vocab-update" (by decide +kernel) (by decide +kernel) hm
    exact ⟨.noVocab, by rw [this]; simp [switches], fun _ => rfl⟩
  | noOptionals =>
    have := key .noOptionals "--disable-remove-optionals" (by decide +kernel) (by decide +kernel) hm
    exact ⟨.noOptionals, by rw [this]; simp [switches], fun _ => rfl⟩
  | force =>
    have := key .force "--force" (by decide +kernel) (by decide +kernel) hm
    exact ⟨.force, by rw [this]; simp [switches], fun _ => rfl⟩
  | help => exact absurd rfl hh
  | infile => cases ho
  | outfile => cases ho
  | from_ => cases ho
  | to_ => cases ho

theorem dashes_toList : ("--" : String).toList = ['-', '-'] := by decide +kernel

theorem standing_ne {neg : String → Bool} {v : String} (h : Standing neg v) : v ≠ "--" := by
  rintro rfl
  rcases h with h | h | h
  · exact absurd h (by decide +kernel)
  · exact absurd h (by decide +kernel)
  · refine h.2.1 (List.prefix_refl _) "--help" (by decide +kernel) ?_
    decide +kernel

theorem ofList_ne {p : List Char} (h : p ≠ ['-', '-']) : String.ofList p ≠ "--" := by
  intro he
  have := congrArg String.toList he
  rw [String.toList_ofList, dashes_toList] at this
  exact h this

theorem abbrev_ne {p : List Char} {full : String} (h : Abbrev p full) : p ≠ ['-', '-'] := by
  rintro rfl
  exact absurd h.2.1 (by decide)

theorem spells_run {neg : String → Bool} {ss : List Setting} {argv : List String} (h : Spells neg ss argv) :
    ∃ ts, readArgs neg argv = some ts ∧ ∀ st, consumeArgs ts st false = finishArgs (ss.foldl ArgState.put st) false := by
  induction h with
  | nil => exact ⟨[], rfl, fun _ => rfl⟩
  | joined v hm hp _ ih =>
    rename_i p full mk ss argv _
    obtain ⟨ts, hts, hrun⟩ := ih
    obtain ⟨hf, o, ho, hv, hst⟩ := value_option hm
    refine ⟨(String.ofList (p ++ '=' :: v.toList), .opt o false (some (true, v.toList))) :: ts, ?_, fun st => ?_⟩
    · rw [readArgs, if_neg (ofList_ne ?_), read_joined neg hp hf ho, hts]
      intro he
      have hne := abbrev_noEq hp hf
      have : '=' ∈ ['-', '-'] := by rw [← he]; simp
      simp at this
    · rw [consumeArgs, if_pos hv]
      dsimp only
      rw [hst, hrun, String.ofList_toList]
      rfl
  | apart hm hp hv _ ih =>
    rename_i p full mk v ss argv _
    obtain ⟨ts, hts, hrun⟩ := ih
    obtain ⟨hf, o, ho, hov, hst⟩ := value_option hm
    refine ⟨(String.ofList p, .opt o false none) :: (v, .plain) :: ts, ?_, fun st => ?_⟩
    · rw [readArgs, if_neg (ofList_ne (abbrev_ne hp)), read_abbrev neg hp hf ho, readArgs, if_neg (standing_ne hv),
        read_standing neg hv, hts]
    · rw [consumeArgs, if_pos hov]
      rw [hst, hrun]
      rfl
  | switch hm hp _ ih =>
    rename_i p full s ss argv _
    obtain ⟨ts, hts, hrun⟩ := ih
    obtain ⟨hf, o, ho, hov, hoh, hst⟩ := switch_option hm
    refine ⟨(String.ofList p, .opt o false none) :: ts, ?_, fun st => ?_⟩
    · rw [readArgs, if_neg (ofList_ne (abbrev_ne hp)), read_abbrev neg hp hf ho, hts]
    · rw [consumeArgs.eq_def]
      dsimp only
      rw [if_neg (by rw [hov]; decide)]
      rw [if_neg hoh, hst, hrun]
      rfl
  | short n _ ih =>
    rename_i ss argv _
    obtain ⟨ts, hts, hrun⟩ := ih
    cases n with
    | zero =>
      refine ⟨(String.ofList ['-', 'f'], .opt .force true none) :: ts, ?_, fun st => ?_⟩
      · rw [readArgs, if_neg (ofList_ne (by simp)), show ('-' :: List.replicate (0 + 1) 'f') = ['-', 'f'] from rfl,
          read_f, hts]
      · rw [consumeArgs.eq_def]
        dsimp only
        rw [if_neg (by decide), if_neg (by decide), hrun]
        rfl
    | succ n =>
      refine ⟨(String.ofList ('-' :: List.replicate (n + 2) 'f'), .opt .force true (some (false, List.replicate (n + 1) 'f'))) :: ts, ?_, fun st => ?_⟩
      · rw [readArgs, if_neg (ofList_ne (by simp [List.replicate_succ])), read_ff, hts]
      · rw [consumeArgs, if_neg (by decide)]
        dsimp only
        rw [if_pos rfl, cluster_f]
        dsimp only
        rw [if_neg (by simp), switch_forces, Bool.or_false, hrun]
        rfl

theorem consume_extra (ts : List (String × ArgTok)) (st : ArgState) (a : CliArgs) : consumeArgs ts st true ≠ .args a := by
  induction hn : ts.length using Nat.strongRecOn generalizing ts st with
  | ind n ih =>
    subst hn
    match ts with
    | [] =>
      rw [consumeArgs]
      unfold finishArgs
      cases st.infile <;> simp
    | (_, .plain) :: rest => rw [consumeArgs]; exact ih _ (by simp) _ _ rfl
    | (_, .stop) :: rest => rw [consumeArgs]; exact ih _ (by simp) _ _ rfl
    | (_, .unknown) :: rest => rw [consumeArgs]; exact ih _ (by simp) _ _ rfl
    | (_, .opt o short attached) :: rest =>
      rw [consumeArgs.eq_def]
      dsimp only
      split
      · split
        · exact ih _ (by simp) _ _ rfl
        · exact ih _ (by simp; omega) _ _ rfl
        · simp
      · split
        · split
          · simp
          · exact ih _ (by simp) _ _ rfl
        · split
          · split
            · simp
            · split
              · simp
              · rw [Bool.true_or]; exact ih _ (by simp) _ _ rfl
          · simp

theorem run_spells {neg : String → Bool} {argv : List String} {ts : List (String × ArgTok)} {st : ArgState} {a : CliArgs}
    (hr : readArgs neg argv = some ts) (h : consumeArgs ts st false = .args a) :
    ∃ ss, Spells neg ss argv ∧ finishArgs (ss.foldl ArgState.put st) false = .args a := by
  induction hn : argv.length using Nat.strongRecOn generalizing argv ts st with
  | ind n ih =>
    subst hn
    match argv with
    | [] =>
      cases hr
      exact ⟨[], .nil, h⟩
    | s :: rest =>
      rw [readArgs] at hr
      split at hr
      · cases hr
        rw [consumeArgs] at h
        exact absurd h (consume_extra _ _ _)
      · split at hr
        · rename_i t ts' ht hts'
          cases hr
          have hsl : String.ofList s.toList = s := String.ofList_toList
          rcases read_inv neg ht with ⟨o, sh, at_, rfl, hform⟩ | ⟨rfl, _⟩ | rfl
          · rw [consumeArgs.eq_def] at h
            cases hform with
            | long hf hm hp =>
              dsimp only at h
              by_cases hov : o.takesValue = true
              · rw [if_pos hov] at h
                obtain ⟨mk, hmk, hst⟩ := option_value hf hm hov
                match rest, ts', hts', h with
                | [], _, hts', h => cases hts'; cases h
                | v :: rest, ts', hts', h =>
                  rw [readArgs] at hts'
                  split at hts'
                  · cases hts'; cases h
                  · split at hts'
                    · rename_i t ts'' ht2 hts''
                      cases hts'
                      rcases read_inv neg ht2 with ⟨_, _, _, rfl, _⟩ | ⟨rfl, hstand⟩ | rfl
                      · cases h
                      · dsimp only at h
                        rw [hst] at h
                        obtain ⟨ss, hss, hfin⟩ := ih _ (by simp; omega) hts'' h rfl
                        refine ⟨mk v :: ss, ?_, hfin⟩
                        rw [← hsl]
                        exact .apart hmk hp hstand hss
                      · cases h
                    · cases hts'
              · have hov : o.takesValue = false := by simpa using hov
                rw [if_neg (by rw [hov]; decide)] at h
                split at h
                · cases h
                · rename_i hoh
                  obtain ⟨s', hs', hst⟩ := option_switch hf hm hov hoh
                  rw [hst] at h
                  obtain ⟨ss, hss, hfin⟩ := ih _ (by simp) hts' h rfl
                  refine ⟨s' :: ss, ?_, hfin⟩
                  rw [← hsl]
                  exact .switch hs' hp hss
            | joined hf hm hp hs =>
              rename_i p x full
              dsimp only at h
              by_cases hov : o.takesValue = true
              · rw [if_pos hov] at h
                obtain ⟨mk, hmk, hst⟩ := option_value hf hm hov
                rw [hst] at h
                obtain ⟨ss, hss, hfin⟩ := ih _ (by simp) hts' h rfl
                refine ⟨mk (String.ofList x) :: ss, ?_, hfin⟩
                rw [← hsl, hs]
                have := Spells.joined (String.ofList x) hmk hp hss
                rw [String.toList_ofList] at this
                exact this
              · rw [if_neg hov] at h
                simp at h
            | short hc hs =>
              rcases hc with ⟨rfl, rfl⟩ | ⟨rfl, rfl⟩
              · simp [Opt.takesValue] at h
              · simp [Opt.takesValue] at h
                obtain ⟨ss, hss, hfin⟩ := ih _ (by simp) hts' h rfl
                refine ⟨.force :: ss, ?_, hfin⟩
                rw [← hsl, hs]
                exact .short 0 hss
            | shortEq hc hs =>
              rename_i c x
              have hcl : ∀ o x, optCluster o true x = none := by
                intro o x
                cases x <;> simp [optCluster]
              rcases hc with ⟨rfl, rfl⟩ | ⟨rfl, rfl⟩ <;> simp [Opt.takesValue, hcl] at h
            | cluster hc hs hx =>
              rename_i c x
              dsimp only at h
              have hov : o.takesValue = false := by rcases hc with ⟨_, rfl⟩ | ⟨_, rfl⟩ <;> rfl
              rw [if_neg (by rw [hov]; decide)] at h
              rw [if_pos rfl] at h
              split at h
              · cases h
              · rename_i os more hcl
                split at h
                · cases h
                · rename_i hhelp
                  cases more with
                  | true => exact absurd h (consume_extra _ _ _)
                  | false =>
                    obtain ⟨hmem, n, rfl⟩ := cluster_inv hcl hhelp
                    rcases hc with ⟨rfl, rfl⟩ | ⟨rfl, rfl⟩
                    · exact absurd hmem hhelp
                    · rw [cluster_f] at hcl
                      simp only [Option.some.injEq, Prod.mk.injEq, and_true] at hcl
                      subst hcl
                      rw [switch_forces] at h
                      obtain ⟨ss, hss, hfin⟩ := ih _ (by simp) hts' h rfl
                      refine ⟨.force :: ss, ?_, hfin⟩
                      rw [← hsl, hs]
                      exact .short (n + 1) hss
          · rw [consumeArgs] at h
            exact absurd h (consume_extra _ _ _)
          · rw [consumeArgs] at h
            exact absurd h (consume_extra _ _ _)
        · cases hr

theorem last_put (f : Setting → Option String) (s : Setting) (ss : List Setting) (x : Option String) :
    ((ss.filterMap f).getLast?).or ((f s).or x) = (((s :: ss).filterMap f).getLast?).or x := by
  cases hf : f s with
  | none => rw [List.filterMap_cons_none hf]; rfl
  | some v =>
    rw [List.filterMap_cons_some hf, List.getLast?_cons]
    cases (ss.filterMap f).getLast? <;> rfl

theorem fold_put (ss : List Setting) (st : ArgState) :
    (ss.foldl ArgState.put st).infile = ((ss.filterMap Setting.infile?).getLast?).or st.infile ∧
    (ss.foldl ArgState.put st).outfile = ((ss.filterMap Setting.outfile?).getLast?).or st.outfile ∧
    (ss.foldl ArgState.put st).from_ = ((ss.filterMap Setting.from?).getLast?).or st.from_ ∧
    (ss.foldl ArgState.put st).to_ = ((ss.filterMap Setting.to?).getLast?).or st.to_ ∧
    ((ss.foldl ArgState.put st).noVocab = true ↔ .noVocab ∈ ss ∨ st.noVocab = true) ∧
    ((ss.foldl ArgState.put st).noOptionals = true ↔ .noOptionals ∈ ss ∨ st.noOptionals = true) ∧
    ((ss.foldl ArgState.put st).force = true ↔ .force ∈ ss ∨ st.force = true) := by
  induction ss generalizing st with
  | nil => simp
  | cons s ss ih =>
    obtain ⟨h1, h2, h3, h4, h5, h6, h7⟩ := ih (st.put s)
    rw [List.foldl_cons, h1, h2, h3, h4, h5, h6, h7, ← last_put Setting.infile? s, ← last_put Setting.outfile? s,
      ← last_put Setting.from? s, ← last_put Setting.to? s]
    cases s <;> simp [ArgState.put, Setting.infile?, Setting.outfile?, Setting.from?, Setting.to?]

theorem finish_asks (ss : List Setting) (a : CliArgs) :
    finishArgs (ss.foldl ArgState.put {}) false = .args a ↔ Asks ss a := by
  obtain ⟨h1, h2, h3, h4, h5, h6, h7⟩ := fold_put ss {}
  generalize ss.foldl ArgState.put {} = st at h1 h2 h3 h4 h5 h6 h7
  simp only [Option.or_none, Bool.false_eq_true, or_false] at h1 h2 h3 h4 h5 h6 h7
  unfold finishArgs
  constructor
  · intro h
    cases hi : st.infile with
    | none => rw [hi] at h; cases h
    | some i =>
      rw [hi] at h
      simp only [Bool.false_eq_true, if_false, ArgOut.args.injEq] at h
      subst h
      exact ⟨by rw [← h1, hi], h2.symm, h3.symm, h4.symm, h5, h6, h7⟩
  · intro h
    rw [show st.infile = some a.infile from h1.trans h.infile]
    simp only [Bool.false_eq_true, if_false, ArgOut.args.injEq]
    have e5 : st.noVocab = a.disableVocabUpdate := Bool.eq_iff_iff.2 (h5.trans h.noVocab.symm)
    have e6 : st.noOptionals = a.disableRemoveOptionals := Bool.eq_iff_iff.2 (h6.trans h.noOptionals.symm)
    have e7 : st.force = a.force := Bool.eq_iff_iff.2 (h7.trans h.force.symm)
    rw [h2, h3, h4, h.outfile, h.from_, h.to_, e5, e6, e7]

/-! ## C60 -/

/-- **C60.**  The tool accepts exactly the command lines that spell settings with an input file among them, and takes from them
what they ask for. -/
theorem C60_reads (neg : String → Bool) (argv : List String) (a : CliArgs) :
    parseArgs neg argv = .args a ↔ ∃ ss, Spells neg ss argv ∧ Asks ss a := by
  unfold parseArgs
  constructor
  · intro h
    cases hr : readArgs neg argv with
    | none => rw [hr] at h; cases h
    | some ts =>
      rw [hr] at h
      obtain ⟨ss, hss, hfin⟩ := run_spells hr h
      exact ⟨ss, hss, (finish_asks ss a).1 hfin⟩
  · rintro ⟨ss, hss, ha⟩
    obtain ⟨ts, hts, hrun⟩ := spells_run hss
    rw [hts]
    exact (hrun {}).trans ((finish_asks ss a).2 ha)

theorem finish_status {st : ArgState} {e : Bool} {n : Nat} (h : finishArgs st e = .exit n) : n = 2 := by
  unfold finishArgs at h
  split at h
  · cases h; rfl
  · split at h
    · cases h; rfl
    · cases h

/-- An argument that asks for help. -/
def AsksHelp (s : String) : Prop :=
  Abbrev s.toList "--help" ∨ ∃ n r, s.toList = '-' :: List.replicate n 'f' ++ 'h' :: r

theorem cluster_help {o : Opt} {x : List Char} {os : List Opt} {more : Bool} (h : optCluster o false x = some (os, more))
    (hh : .help ∈ os) : o = .help ∨ ∃ n r, x = List.replicate n 'f' ++ 'h' :: r := by
  induction x generalizing o os with
  | nil => simp [optCluster] at h
  | cons c cs ih =>
    unfold optCluster at h
    simp only [Bool.false_or] at h
    split at h
    · cases h
    · split at h
      · simp only [Option.some.injEq, Prod.mk.injEq] at h
        rw [← h.1] at hh
        exact Or.inl (List.mem_singleton.1 hh).symm
      · rename_i o' ho'
        rcases exact_short ho' with ⟨rfl, rfl⟩ | ⟨rfl, rfl⟩
        · exact Or.inr ⟨0, cs, rfl⟩
        · split at h
          · simp only [Option.some.injEq, Prod.mk.injEq] at h
            rw [← h.1] at hh
            simp only [List.mem_cons, List.not_mem_nil, or_false] at hh
            rcases hh with hh | hh
            · exact Or.inl hh.symm
            · cases hh
          · cases h
          · obtain ⟨⟨os', more'⟩, hr, hre⟩ := Option.map_eq_some_iff.1 h
            simp only [Prod.mk.injEq] at hre
            rw [← hre.1] at hh
            rcases List.mem_cons.1 hh with hh | hh
            · exact Or.inl hh.symm
            · rw [hre.2] at hr
              rcases ih hr hh with h | ⟨n, r, hx⟩
              · cases h
              · exact Or.inr ⟨n + 1, r, by rw [hx]; rfl⟩

theorem help_name {full : String} (hf : full ∈ longNames) (hm : (full.toList, Opt.help) ∈ optNames) : full = "--help" := by
  have hu : ∀ x ∈ longNames, ∀ e ∈ optNames, x.toList = e.1 → e.2 = .help → x = "--help" := by decide +kernel
  exact hu _ hf _ hm rfl rfl

theorem consume_status {ts : List (String × ArgTok)} {st : ArgState} {e : Bool} {n : Nat}
    (hts : ∀ p ∈ ts, ∀ o sh at_, p.2 = .opt o sh at_ → OptForm p.1.toList o sh at_)
    (h : consumeArgs ts st e = .exit n) : n = 2 ∨ n = 0 ∧ ∃ p ∈ ts, AsksHelp p.1 := by
  induction hn : ts.length using Nat.strongRecOn generalizing ts st e with
  | ind k ih =>
    subst hn
    have go : ∀ (rest : List (String × ArgTok)) st' e', rest.length < ts.length → (∀ p ∈ rest, p ∈ ts) →
        consumeArgs rest st' e' = .exit n → n = 2 ∨ n = 0 ∧ ∃ p ∈ ts, AsksHelp p.1 := by
      intro rest st' e' hl hsub hr
      rcases ih _ hl (fun p hp => hts p (hsub p hp)) hr rfl with h | ⟨h, p, hp, hh⟩
      · exact Or.inl h
      · exact Or.inr ⟨h, p, hsub p hp, hh⟩
    match ts, hts, h, go with
    | [], _, h, _ => rw [consumeArgs] at h; exact Or.inl (finish_status h)
    | (_, .plain) :: rest, _, h, go => rw [consumeArgs] at h; exact go _ _ _ (by simp) (by simp +contextual) h
    | (_, .stop) :: rest, _, h, go => rw [consumeArgs] at h; exact go _ _ _ (by simp) (by simp +contextual) h
    | (_, .unknown) :: rest, _, h, go => rw [consumeArgs] at h; exact go _ _ _ (by simp) (by simp +contextual) h
    | (s, .opt o short attached) :: rest, hts, h, go =>
      have hform := hts _ (List.mem_cons_self) _ _ _ rfl
      dsimp only at hform
      rw [consumeArgs.eq_def] at h
      dsimp only at h
      split at h
      · split at h
        · exact go _ _ _ (by simp) (by simp +contextual) h
        · exact go _ _ _ (by simp; omega) (by simp +contextual) h
        · cases h; exact Or.inl rfl
      · split at h
        · split at h
          · rename_i ho
            cases h
            subst ho
            refine Or.inr ⟨rfl, _, List.mem_cons_self, ?_⟩
            cases hform with
            | long hf hm hp => rw [help_name hf hm] at hp; exact Or.inl hp
            | short hc hs =>
              rcases hc with ⟨rfl, _⟩ | ⟨_, h⟩
              · exact Or.inr ⟨0, [], hs⟩
              · cases h
          · exact go _ _ _ (by simp) (by simp +contextual) h
        · rename_i x
          split at h
          · split at h
            · cases h; exact Or.inl rfl
            · rename_i os more hcl
              split at h
              · rename_i hhelp
                cases h
                refine Or.inr ⟨rfl, _, List.mem_cons_self, Or.inr ?_⟩
                cases hform with
                | joined hf hm hp hs => rename_i hsh; cases hsh
                | @shortEq c _ x hc hs =>
                  have : optCluster o true x = none := by cases x <;> simp [optCluster]
                  rw [this] at hcl; cases hcl
                | @cluster c _ x hc hs hx =>
                  rcases hc with ⟨rfl, rfl⟩ | ⟨rfl, rfl⟩
                  · exact ⟨0, x, hs⟩
                  · rcases cluster_help hcl hhelp with h | ⟨n, r, hx⟩
                    · cases h
                    · exact ⟨n + 1, r, by rw [hs, show x = _ from hx]; rfl⟩
              · exact go _ _ _ (by simp) (by simp +contextual) h
          · cases h; exact Or.inl rfl

theorem readArgs_forms {neg : String → Bool} {argv : List String} {ts : List (String × ArgTok)}
    (h : readArgs neg argv = some ts) : (∀ p ∈ ts, p.1 ∈ argv) ∧
      ∀ p ∈ ts, ∀ o sh at_, p.2 = .opt o sh at_ → OptForm p.1.toList o sh at_ := by
  induction argv generalizing ts with
  | nil => cases h; simp
  | cons s rest ih =>
    rw [readArgs] at h
    split at h
    · cases h
      constructor
      · intro p hp
        rcases List.mem_cons.1 hp with rfl | hp
        · simp
        · obtain ⟨r, hr, rfl⟩ := List.mem_map.1 hp
          simp [hr]
      · intro p hp o sh at_ he
        rcases List.mem_cons.1 hp with rfl | hp
        · cases he
        · obtain ⟨r, hr, rfl⟩ := List.mem_map.1 hp
          cases he
    · split at h
      · rename_i t ts' ht hts'
        cases h
        obtain ⟨h1, h2⟩ := ih hts'
        constructor
        · intro p hp
          rcases List.mem_cons.1 hp with rfl | hp
          · simp
          · exact List.mem_cons_of_mem _ (h1 p hp)
        · intro p hp o sh at_ he
          rcases List.mem_cons.1 hp with rfl | hp
          · dsimp only at he ⊢
            subst he
            rcases read_inv neg ht with ⟨_, _, _, he, hform⟩ | ⟨he, _⟩ | he
            · cases he; exact hform
            · cases he
            · cases he
          · exact h2 p hp o sh at_ he
      · cases h

/-- Abbreviated, joined, separate and repeated options in one command line. -/
theorem sample_spells (neg : String → Bool) :
    Spells neg [.infile "a.xml", .force, .to_ "1.1", .noVocab, .to_ "1.2"]
      ["--in", "a.xml", "-ff", "--t=1.1", "--disable-v", "--to", "1.2"] :=
  .apart (p := "--in".toList) (full := "--infile") (by simp [valueOptions]) (by unfold Abbrev; decide +kernel)
    (Or.inl (by decide +kernel)) <|
  .short 1 <|
  .joined (p := "--t".toList) (full := "--to") "1.1" (by simp [valueOptions]) (by unfold Abbrev; decide +kernel) <|
  .switch (p := "--disable-v".toList) (full := "--disable-vocab-update") (by simp [switches]) (by unfold Abbrev; decide +kernel) <|
  .apart (p := "--to".toList) (full := "--to") (by simp [valueOptions]) (by unfold Abbrev; decide +kernel)
    (Or.inl (by decide +kernel)) .nil

theorem sample_asks :
    Asks [.infile "a.xml", .force, .to_ "1.1", .noVocab, .to_ "1.2"]
      { infile := "a.xml", to_ := some "1.2", disableVocabUpdate := true, force := true } :=
  ⟨rfl, rfl, rfl, rfl, by decide, by decide, by decide⟩

example (neg : String → Bool) : parseArgs neg ["--in", "a.xml", "-ff", "--t=1.1", "--disable-v", "--to", "1.2"] =
    .args { infile := "a.xml", to_ := some "1.2", disableVocabUpdate := true, force := true } :=
  (C60_reads neg _ _).2 ⟨_, sample_spells neg, sample_asks⟩

/-- **C60.**  Any other command line ends the tool before it looks at a file: with status 2, or with status 0 if some argument
asks for help. -/
theorem C60_refuses (w : World) (newId : Nat → String → String) (neg : String → Bool) (argv : List String)
    (h : ∀ ss a, Spells neg ss argv → ¬ Asks ss a) :
    (∀ fs, cliProgram w newId fs neg argv = .inl 2) ∨
      (∃ s ∈ argv, AsksHelp s) ∧ ∀ fs, cliProgram w newId fs neg argv = .inl 0 := by
  cases hp : parseArgs neg argv with
  | args a =>
    obtain ⟨ss, hss, ha⟩ := (C60_reads neg argv a).1 hp
    exact absurd ha (h ss a hss)
  | exit n =>
    have hfs : ∀ fs, cliProgram w newId fs neg argv = .inl n := by
      intro fs; unfold cliProgram; rw [hp]
    unfold parseArgs at hp
    cases hr : readArgs neg argv with
    | none =>
      rw [hr] at hp
      cases hp
      exact Or.inl hfs
    | some ts =>
      rw [hr] at hp
      obtain ⟨h1, h2⟩ := readArgs_forms hr
      rcases consume_status h2 hp with rfl | ⟨rfl, p, hmem, hh⟩
      · exact Or.inl hfs
      · exact Or.inr ⟨⟨p.1, h1 p hmem, hh⟩, hfs⟩

/-- `--f` could be `--from` or `--force`; with `-fh` help is printed first. -/
example : (∀ fs, cliProgram w0 (fun _ s => s) fs (fun _ => false) ["--infile", "a.xml", "--f"] = .inl 2) ∧
    (∀ fs, cliProgram w0 (fun _ s => s) fs (fun _ => false) ["-fh", "--from"] = .inl 0) := by
  have h1 : (match parseArgs (fun _ => false) ["--infile", "a.xml", "--f"] with | .exit n => n == 2 | .args _ => false) = true := by
    decide +kernel
  have h2 : (match parseArgs (fun _ => false) ["-fh", "--from"] with | .exit n => n == 0 | .args _ => false) = true := by
    decide +kernel
  unfold cliProgram
  constructor
  · intro fs
    cases hp : parseArgs (fun _ => false) ["--infile", "a.xml", "--f"] with
    | args a => rw [hp] at h1; cases h1
    | exit n => rw [hp] at h1; simp at h1; rw [h1]
  · intro fs
    cases hp : parseArgs (fun _ => false) ["-fh", "--from"] with
    | args a => rw [hp] at h2; cases h2
    | exit n => rw [hp] at h2; simp at h2; rw [h2]

/-- The hypothesis of `C60_refuses` holds for a command line without an input file. -/
example (ss : List Setting) (a : CliArgs) (h : Spells (fun _ => false) ss ["--force"]) : ¬ Asks ss a := by
  intro ha
  have hp := (C60_reads _ _ a).2 ⟨ss, h, ha⟩
  have h1 : (match parseArgs (fun _ => false) ["--force"] with | .exit n => n == 2 | .args _ => false) = true := by
    decide +kernel
  rw [hp] at h1
  cases h1

/-- **C60.**  A command line that spells settings runs the update they ask for, whatever spelling is chosen. -/
theorem C60_runs (w : World) (newId : Nat → String → String) (fs : String → Option (Option Node)) (neg : String → Bool)
    {ss : List Setting} {argv : List String} {a : CliArgs} (hs : Spells neg ss argv) (ha : Asks ss a) :
    cliProgram w newId fs neg argv = .inr (cliMain w newId fs a) := by
  unfold cliProgram
  rw [(C60_reads neg argv a).2 ⟨ss, hs, ha⟩]

example (fs : String → Option (Option Node)) :
    cliProgram w0 (fun _ s => s) fs (fun _ => false) ["--in", "a.xml", "-ff", "--t=1.1", "--disable-v", "--to", "1.2"] =
      .inr (cliMain w0 (fun _ s => s) fs
        { infile := "a.xml", to_ := some "1.2", disableVocabUpdate := true, force := true }) :=
  C60_runs _ _ fs _ (sample_spells _) sample_asks

/-- The option a setting is for. -/
def Setting.key : Setting → Nat
  | .infile _ => 0 | .outfile _ => 1 | .from_ _ => 2 | .to_ _ => 3 | .noVocab => 4 | .noOptionals => 5 | .force => 6

theorem last_perm {f : Setting → Option String} (hf : ∀ s s' v v', f s = some v → f s' = some v' → s.key = s'.key)
    {ss ss' : List Setting} (hp : ss.Perm ss') (hn : (ss.map Setting.key).Nodup) :
    (ss.filterMap f).getLast? = (ss'.filterMap f).getLast? := by
  have hp2 := hp.filterMap f
  have hlen : (ss.filterMap f).length ≤ 1 := by
    clear hp hp2
    induction ss with
    | nil => simp
    | cons s ss ih =>
      rw [List.map_cons, List.nodup_cons] at hn
      cases hs : f s with
      | none => rw [List.filterMap_cons_none hs]; exact ih hn.2
      | some v =>
        rw [List.filterMap_cons_some hs]
        have : ss.filterMap f = [] := by
          rw [List.filterMap_eq_nil_iff]
          intro s' hs'
          cases hfs : f s' with
          | none => rfl
          | some v' => exact absurd (List.mem_map.2 ⟨s', hs', (hf _ _ _ _ hs hfs).symm⟩) hn.1
        rw [this]; simp
  generalize ss.filterMap f = l at hp2 hlen
  generalize ss'.filterMap f = l' at hp2
  match l, hlen with
  | [], _ => rw [List.nil_perm.1 hp2]
  | [x], _ => rw [List.singleton_perm.1 hp2]
  | _ :: _ :: _, h => simp at h

/-- **C60.**  The order of the options does not matter as long as none is given twice. -/
theorem C60_order (neg : String → Bool) {ss ss' : List Setting} {argv argv' : List String} {a : CliArgs}
    (h : Spells neg ss argv) (h' : Spells neg ss' argv') (hp : ss.Perm ss') (hn : (ss.map Setting.key).Nodup)
    (ha : parseArgs neg argv = .args a) : parseArgs neg argv' = .args a := by
  have hask : Asks ss a := by
    obtain ⟨ts, hts, hrun⟩ := spells_run h
    unfold parseArgs at ha
    rw [hts] at ha
    exact (finish_asks ss a).1 ((hrun {}).symm.trans ha)
  refine (C60_reads neg argv' a).2 ⟨ss', h', ?_, ?_, ?_, ?_, ?_, ?_, ?_⟩
  · rw [← last_perm ?_ hp hn]; exact hask.infile
    intro s s' v v' h1 h2; cases s <;> cases s' <;> simp_all [Setting.infile?, Setting.key]
  · rw [← last_perm ?_ hp hn]; exact hask.outfile
    intro s s' v v' h1 h2; cases s <;> cases s' <;> simp_all [Setting.outfile?, Setting.key]
  · rw [← last_perm ?_ hp hn]; exact hask.from_
    intro s s' v v' h1 h2; cases s <;> cases s' <;> simp_all [Setting.from?, Setting.key]
  · rw [← last_perm ?_ hp hn]; exact hask.to_
    intro s s' v v' h1 h2; cases s <;> cases s' <;> simp_all [Setting.to?, Setting.key]
  · rw [hask.noVocab, hp.mem_iff]
  · rw [hask.noOptionals, hp.mem_iff]
  · rw [hask.force, hp.mem_iff]

example (neg : String → Bool) : parseArgs neg ["-f", "--infile=a.xml"] = .args { infile := "a.xml", force := true } := by
  have h : Spells neg [.infile "a.xml", .force] ["--infile", "a.xml", "--force"] :=
    .apart (p := "--infile".toList) (full := "--infile") (by simp [valueOptions]) (by unfold Abbrev; decide +kernel)
      (Or.inl (by decide +kernel)) <|
    .switch (p := "--force".toList) (full := "--force") (by simp [switches]) (by unfold Abbrev; decide +kernel) .nil
  have h' : Spells neg [.force, .infile "a.xml"] ["-f", "--infile=a.xml"] :=
    .short 0 <|
    .joined (p := "--infile".toList) (full := "--infile") "a.xml" (by simp [valueOptions]) (by unfold Abbrev; decide +kernel) .nil
  exact C60_order neg h h' (List.Perm.swap _ _ _) (by decide)
    ((C60_reads neg _ _).2 ⟨_, h, rfl, rfl, rfl, rfl, by decide, by decide, by decide⟩)

end Ramrod
