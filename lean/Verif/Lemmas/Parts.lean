import Verif.Lemmas.Split
import Verif.Lemmas.Errors
import Verif.Lemmas.Optional
import Verif.Lemmas.Cut
import Verif.Props.Release
/-!
# The steps and checks on the parts of a document
-/

namespace Ramrod

/-! ## Steps -/

theorem Splits.total_then {f : Node → Node} {P : Node → Except Err Node}
    (h : ∀ n t a b, Parts n t a b → Parts n (f t) (f a) (f b)) (hP : Splits P) : Splits (fun t => P (f t)) :=
  (Splits.total h).seq hP (fun _ _ hx => by cases hx) (fun _ _ hs => by cases hs; rfl)

theorem Splits.then {P Q : Node → Except Err Node} (hP : Splits P) (hQ : Splits Q) :
    Splits (fun t => match P t with | .error x => .error x | .ok t => Q t) :=
  hP.seq hQ (fun t x hx => by simp only [hx]) (fun t s hs => by simp only [hs])

theorem stixVersion_parts (u : Cls) (hu : headOnly u.xpathVersioned = true) (i v : String) : ∀ n t a b, Parts n t a b →
    Parts n (stixUpdateVersions u i v t) (stixUpdateVersions u i v a) (stixUpdateVersions u i v b) := by
  intro n t a b h
  rw [stixVersions_eq, stixVersions_eq, stixVersions_eq]
  refine version_splits hu (fun e e' he => ?_) n t a b h
  unfold setStixVersion
  rw [he.1]
  exact he.set _ _

theorem cybox20Version_parts (u : Cls) (hu : headOnly u.xpathVersioned = true) : ∀ n t a b, Parts n t a b →
    Parts n (cybox20UpdateVersions u t) (cybox20UpdateVersions u a) (cybox20UpdateVersions u b) := by
  intro n t a b h
  rw [cybox20Versions_eq, cybox20Versions_eq, cybox20Versions_eq]
  exact version_splits hu (fun e e' he => ((he.set _ _).set _ _).set _ _) n t a b h

theorem cybox201Version_parts (u : Cls) (hu : headOnly u.xpathVersioned = true) : ∀ n t a b, Parts n t a b →
    Parts n (cybox201UpdateVersions u t) (cybox201UpdateVersions u a) (cybox201UpdateVersions u b) := by
  intro n t a b h
  rw [cybox201Versions_eq, cybox201Versions_eq, cybox201Versions_eq]
  exact version_splits hu (fun e e' he => ((he.set _ _).set _ _).del _) n t a b h

theorem cybox201_fields_splits : Splits (fun t => translateFields cybox201Translatable t) := by
  refine fields_splits (fun f hf => ?_)
  simp only [cybox201Translatable, List.mem_cons, List.not_mem_nil, or_false] at hf
  rcases hf with rfl | rfl | rfl | rfl | rfl | rfl | rfl | rfl
  · exact value_splits (by decide)
  · exact value_splits (by decide)
  · exact value_splits (by decide)
  · exact renamed_splits (by decide)
  · exact renamed_splits (by decide)
  · exact renamed_splits (by decide)
  · exact renamed_splits (by decide)
  · exact parent_splits

theorem empty_splits {alts : List XAlt} {m : List (String × String)} (hb : BelowRoot alts) :
    ListSplits (⟨[], .union alts, m, keepEmpty⟩ : Finder).find :=
  union_splits (p := fun c => c.node.isEmptyElem) hb (fun _ _ => rfl) (fun _ _ => rfl)

theorem cybox201_optionals_splits : Splits (fun t => removeOptionals cybox201Optionals t) := by
  have h : ∀ f ∈ cybox201Optionals, ∃ alts, f = cybox201Finder alts keepEmpty ∧ BelowRoot alts := by
    intro f hf
    simp only [cybox201Optionals, List.mem_cons, List.not_mem_nil, or_false] at hf
    rcases hf with rfl | rfl | rfl | rfl | rfl | rfl | rfl | rfl | rfl | rfl | rfl | rfl | rfl | rfl <;>
      exact ⟨_, rfl, by decide⟩
  refine optionals_splits (fun f hf => ?_)
  obtain ⟨alts, rfl, hb⟩ := h f hf
  exact empty_splits hb

theorem stix101_fields_splits (w : World) : Splits (fun t => translateFields (stix101Cls w).translatable t) := by
  refine fields_splits (fun f hf => ?_)
  simp only [stix101Cls, List.mem_cons, List.not_mem_nil, or_false] at hf
  rcases hf with rfl | rfl
  · exact custom_splits (by decide) (fun _ _ => rfl)
  · exact custom_splits (by decide) (fun _ _ => rfl)

theorem stix11_fields_splits (w : World) : Splits (fun t => translateFields (stix11Cls w).translatable t) := by
  refine fields_splits (fun f hf => ?_)
  simp only [stix11Cls, List.mem_cons, List.not_mem_nil, or_false] at hf
  rcases hf with rfl | rfl | rfl
  · exact custom_splits (by decide) (fun _ _ => rfl)
  · exact custom_splits (by decide) (fun _ _ => rfl)
  · exact custom_splits (by decide) (fun _ _ => rfl)

theorem cybox20Update_splits {u : Cls} (hu : headOnly u.xpathVersioned = true) (o : Options) :
    Splits (fun t => cybox20Update u o t) := by
  have h1 := (vocabs_splits u.vocabs).ite o.updateVocabularies
  have h2 := Splits.total_then (lists_splits u) h1
  have h3 := Splits.total_then (cybox20Version_parts u hu) h2
  have h4 := Splits.total_then (schemaloc_splits u) h3
  exact h4

theorem cybox201Update_splits {m : List (String × String)} {sel : List XAlt} (hu : headOnly sel = true) (o : Options) :
    Splits (fun t => cybox201Update (cybox201Cls m sel) o t) := by
  have h1 := cybox201_optionals_splits.ite o.removeOptionals
  have h2 := ((vocabs_splits (cybox201Cls m sel).vocabs).ite o.updateVocabularies).then h1
  have h3 := cybox201_fields_splits.then h2
  have h4 := Splits.total_then (cybox201Version_parts (cybox201Cls m sel) hu) h3
  have h5 := Splits.total_then (schemaloc_splits (cybox201Cls m sel)) h4
  have h6 := Splits.total_then (namespaces_splits (cybox201Cls m sel)) h5
  intro n t a b hp
  refine ⟨fun t' ht => (h6 n t a b hp).1 t' ?_, ?_⟩
  · exact ht
  · exact (h6 n t a b hp).2

theorem stix10Update_splits (o : Options) : Splits (fun t => stix10Update o t) := by
  have h1 := (vocabs_splits stix10Cls.vocabs).ite o.updateVocabularies
  have h2 := Splits.total_then (stixVersion_parts stix10Cls (by decide) "2.0.1" "1.0.1") h1
  have h3 := Splits.total_then (schemaloc_splits stix10Cls) h2
  have h4 := Splits.total_then (namespaces_splits stix10Cls) h3
  have h5 := (cybox20Update_splits (u := stix10Cybox) (by decide) o).then h4
  exact h5

theorem stix101Update_splits (w : World) (o : Options) : Splits (fun t => stix101Update w o t) := by
  have h0 : Splits (fun t => removeOptionals (stix101Cls w).optionals t) := optionals_splits (fun f hf => by
    rw [List.mem_singleton.1 hf]; exact empty_splits (by decide))
  have h1 := h0.ite o.removeOptionals
  have h2 := ((vocabs_splits (stix101Cls w).vocabs).ite o.updateVocabularies).then h1
  have h3 := (stix101_fields_splits w).then h2
  have h4 := Splits.total_then (stixVersion_parts (stix101Cls w) (show headOnly xpathStixVersioned = true by decide) "2.1" "1.1") h3
  have h5 := Splits.total_then (schemaloc_splits (stix101Cls w)) h4
  have h6 := Splits.total_then (namespaces_splits (stix101Cls w)) h5
  have h7 := (cybox201Update_splits (m := joinNsmap Tables.stix101_nsmap Tables.cybox201_nsmap) (sel := stix101Selectors)
    (by decide) o).then h6
  exact h7

theorem stix11Update_splits (w : World) (o : Options) : Splits (fun t => stix11Update w o t) := by
  have h0 : Splits (fun t => removeOptionals (stix11Cls w).optionals t) := optionals_splits (fun f hf => by
    rw [List.mem_singleton.1 hf]; exact generic_splits)
  have h1 := h0.ite o.removeOptionals
  have h2 := ((vocabs_splits (stix11Cls w).vocabs).ite o.updateVocabularies).then h1
  have h3 := (stix11_fields_splits w).then h2
  have h4 := Splits.total_then (stixVersion_parts (stix11Cls w) (show headOnly xpathStixVersioned = true by decide) "2.1.1" "1.1.1") h3
  have h5 := Splits.total_then (schemaloc_splits (stix11Cls w)) h4
  have h6 := Splits.total_then (schemaloc_splits stix11Cybox) h5
  exact h6

theorem stix111Update_splits (o : Options) : Splits (fun t => stix111Update o t) := by
  have h1 := (vocabs_splits stix111Cls.vocabs).ite o.updateVocabularies
  have h2 := Splits.total_then (stixVersion_parts stix111Cls (by decide) "2.2" "1.2") h1
  have h3 := Splits.total_then (schemaloc_splits stix111Cls) h2
  exact h3

theorem stix12Update_splits (o : Options) : Splits (fun t => stix12Update o t) := by
  have h1 := Splits.total (rootVersion_splits "1.2.1")
  have h2 := Splits.total_then (schemaloc_splits stix12Cls) h1
  have h3 := Splits.total_then (namespaces_splits stix12Cls) h2
  exact h3

theorem registered_splits {w : World} {u : Updater} (h : Registered w u) (o : Options) : Splits (fun t => u.update o t) := by
  cases h with
  | cybox20 => exact cybox20Update_splits (by decide) o
  | cybox201 => exact cybox201Update_splits (by decide) o
  | stix10 => exact stix10Update_splits o
  | stix101 => exact stix101Update_splits w o
  | stix11 => exact stix11Update_splits w o
  | stix111 => exact stix111Update_splits o
  | stix12 => exact stix12Update_splits o

/-! ## Checks -/

/-- A search finds nothing in a document when it finds nothing in the parts. -/
def NoneSplits (f : Finder) : Prop := ∀ n t a b, Parts n t a b → (f.find t = .ok [] ↔ f.find a = .ok [] ∧ f.find b = .ok [])

theorem ListSplits.none {f : Finder} (h : ListSplits f.find) : NoneSplits f := by
  intro n t a b hp
  obtain ⟨h1, h2, _⟩ := h n t a b hp
  constructor
  · intro ht
    obtain ⟨la, lb, ha, hb, hl⟩ := h1 [] ht
    have := List.append_eq_nil_iff.1 hl.symm
    rw [this.1] at ha
    rw [List.map_eq_nil_iff.1 this.2] at hb
    exact ⟨ha, hb⟩
  · rintro ⟨ha, hb⟩
    obtain ⟨l, hl⟩ := h2 [] [] ha hb
    obtain ⟨la, lb, ha', hb', rfl⟩ := h1 l hl
    rw [ha] at ha'; rw [hb] at hb'
    cases ha'; cases hb'
    exact hl

theorem date_empty {w : World} {t : Node} : (disallowedDateTime w).find t = .ok [] ↔
    (⟨[], .union [relIn "campaign" "Activity" "stixCommon" "Date_Time"], Tables.stix101_nsmap,
      fun _ cs => cs.filter (fun c => !dateTimeOk w c)⟩ : Finder).find t = .ok [] := by
  unfold disallowedDateTime
  rw [find_union rfl, find_union rfl]
  simp only [Except.ok.injEq]
  constructor
  · intro h
    apply List.eq_nil_iff_forall_not_mem.2
    intro d hd
    have hd' := (List.mem_filter.1 hd).1
    have hx := List.mem_filter.1 hd'
    have ha : d.anc ≠ [] := any_anc_ne (by decide) hx.2
    obtain ⟨c, hc, i, hi, _⟩ := elems_parent hx.1 ha
    have hf : t.ctxAt d.pos.tail = some c := by
      unfold Node.ctxAt
      rw [hi, List.tail_cons]
      have := find_filter_pos (t := t) (sel := fun _ => true) hc
      simpa using this
    have : c ∈ ((t.xpath Tables.stix101_nsmap [relIn "campaign" "Activity" "stixCommon" "Date_Time"]).filter
        (fun c => !dateTimeOk w c)).filterMap (fun c => t.ctxAt c.pos.tail) := List.mem_filterMap.2 ⟨d, hd, hf⟩
    rw [h] at this
    cases this
  · intro h
    rw [h]
    rfl

theorem date_none (w : World) : NoneSplits (disallowedDateTime w) := by
  intro n t a b h
  rw [date_empty, date_empty, date_empty]
  exact (union_splits (p := fun c => !dateTimeOk w c) (by decide) (fun _ _ => rfl) (fun _ _ => rfl)).none n t a b h

theorem childCtxs_free (c : Ctx) (q : Pos) (p : Ctx → Bool) (hp : ∀ c q, p { c with pos := q } = p c) :
    ∀ (l : List Node) (i : Nat), (childCtxs { c with pos := q } i l).all p = (childCtxs c i l).all p
  | [], _ => rfl
  | .other _ _ :: ks, i => by simp only [childCtxs]; exact childCtxs_free c q p hp ks (i + 1)
  | .elem e es :: ks, i => by
    simp only [childCtxs, List.all_cons, childCtxs_free c q p hp ks (i + 1)]
    congr 1
    exact (hp ⟨i :: c.pos, e.decls ++ c.env, c.e.tag :: c.anc, e, es⟩ (i :: q))

theorem wrap_none (m : List (String × String)) (n ns : String) : NoneSplits (disallowedParent m n ns) :=
  (union_splits (alts := [rel "ttp" n]) (p := allChildrenIn ns) (by intro a ha; left; rw [List.mem_singleton.1 ha]; rfl)
    (fun _ _ => rfl) (fun c q => childCtxs_free c q _ (fun _ _ => rfl) c.kids 0)).none

theorem all_splits {alts : List XAlt} {m : List (String × String)} (hb : BelowRoot alts) :
    NoneSplits (⟨[], .union alts, m, keepAll⟩ : Finder) :=
  (union_splits (p := fun _ => true) hb (fun _ _ => (List.filter_eq_self.2 (fun _ _ => rfl)).symm) (fun _ _ => rfl)).none

theorem none_cybox201 : ∀ f ∈ cybox201Disallowed, NoneSplits f := by
  intro f hf
  simp only [cybox201Disallowed, List.mem_cons, List.not_mem_nil, or_false] at hf
  rcases hf with rfl | rfl | rfl | rfl
  · exact all_splits (by decide)
  · exact all_splits (by decide)
  · exact all_splits (by decide)
  · exact (union_splits (p := fun c => decide (c.kids.length > 1)) (by decide) (fun _ _ => rfl) (fun _ _ => rfl)).none

theorem none_stix10 : ∀ f ∈ stix10Disallowed, NoneSplits f := by
  intro f hf
  simp only [stix10Disallowed, List.mem_cons, List.not_mem_nil, or_false] at hf
  rcases hf with rfl | rfl | rfl | rfl
  · exact self_splits.none
  · exact self_splits.none
  · exact wrap_none _ _ _
  · exact wrap_none _ _ _

theorem none_stix101 (w : World) : ∀ f ∈ stix101Disallowed w, NoneSplits f := by
  intro f hf
  simp only [stix101Disallowed, List.mem_cons, List.not_mem_nil, or_false] at hf
  rcases hf with rfl | rfl | rfl | rfl | rfl
  · exact self_splits.none
  · exact self_splits.none
  · exact date_none w
  · exact wrap_none _ _ _
  · exact wrap_none _ _ _

theorem findAll_none {t : Node} : ∀ {fs : List Finder}, findAll fs t = .ok [] ↔ ∀ f ∈ fs, f.find t = .ok []
  | [] => by simp [findAll]
  | f :: fs => by
    have ih := findAll_none (t := t) (fs := fs)
    simp only [findAll, List.mem_cons, forall_eq_or_imp]
    constructor
    · intro h
      split at h
      · cases h
      · next a ha =>
        split at h
        · cases h
        · next b hb =>
          simp only [Except.ok.injEq, List.append_eq_nil_iff] at h
          obtain ⟨rfl, rfl⟩ := h
          exact ⟨ha, ih.1 hb⟩
    · rintro ⟨h1, h2⟩
      rw [h1, ih.2 h2]
      rfl

theorem findAll_splits {fs : List Finder} (h : ∀ f ∈ fs, NoneSplits f) {n : Nat} {t a b : Node} (hp : Parts n t a b) :
    findAll fs t = .ok [] ↔ findAll fs a = .ok [] ∧ findAll fs b = .ok [] := by
  rw [findAll_none, findAll_none, findAll_none]
  constructor
  · intro ht
    exact ⟨fun f hf => ((h f hf n t a b hp).1 (ht f hf)).1, fun f hf => ((h f hf n t a b hp).1 (ht f hf)).2⟩
  · rintro ⟨ha, hb⟩ f hf
    exact (h f hf n t a b hp).2 ⟨ha f hf, hb f hf⟩

/-- No element below the root has the id `i`. -/
def NoId (i : String) (t : Node) : Prop := ∀ c ∈ t.descs, c.e.get? attrId ≠ some i

/-- No id occurs below the roots of both documents. -/
def IdsApart (a b : Node) : Prop := ∀ i, NoId i a ∨ NoId i b

theorem groupDups_none {cs : List Ctx} : groupDups cs = [] ↔
    ∀ i, (cs.filter (fun c => decide (c.e.get? attrId = some i))).length ≤ 1 := by
  constructor
  · intro h i
    apply Nat.le_of_not_lt
    intro hl
    have := mem_groupDups.2 ⟨rfl, hl⟩
    rw [h] at this
    cases this
  · intro h
    apply List.eq_nil_iff_forall_not_mem.2
    rintro ⟨i, l⟩ hm
    obtain ⟨rfl, hl⟩ := mem_groupDups.1 hm
    have := h i
    omega

theorem dups_parts {n : Nat} {t a b : Node} (h : Parts n t a b) (m : List (String × String)) :
    (getDuplicates m t = [] → getDuplicates m a = [] ∧ getDuplicates m b = []) ∧
    (getDuplicates m a = [] → getDuplicates m b = [] → IdsApart a b → getDuplicates m t = []) := by
  unfold getDuplicates
  rw [filter_descs h (fun _ _ => rfl), groupDups_none, groupDups_none, groupDups_none]
  have e : ∀ (i : String) (la lb : List Ctx), ((la ++ lb.map (Ctx.shift n)).filter (fun c => decide (c.e.get? attrId = some i))).length =
      (la.filter (fun c => decide (c.e.get? attrId = some i))).length +
        (lb.filter (fun c => decide (c.e.get? attrId = some i))).length := by
    intro i la lb
    rw [List.filter_append, List.length_append, List.filter_map, List.length_map]
    rfl
  have z : ∀ (i : String) (s : Node) (p : Ctx → Bool), NoId i s →
      ((s.descs.filter p).filter (fun c => decide (c.e.get? attrId = some i))).length = 0 := by
    intro i s p hs
    rw [List.length_eq_zero_iff]
    apply List.eq_nil_iff_forall_not_mem.2
    intro c hc
    obtain ⟨h1, h2⟩ := List.mem_filter.1 hc
    exact hs c (List.mem_filter.1 h1).1 (of_decide_eq_true h2)
  constructor
  · intro ht
    refine ⟨fun i => ?_, fun i => ?_⟩
    · have := ht i; rw [e] at this; omega
    · have := ht i; rw [e] at this; omega
  · intro ha hb hab i
    rw [e]
    have h1 := ha i
    have h2 := hb i
    rcases hab i with h3 | h3
    · rw [z i a _ h3]; omega
    · rw [z i b _ h3]; omega

theorem dictSet_nonempty {β : Type} (m : List (String × β)) (k : String) (v : β) : dictSet m k v ≠ [] := by
  cases m with
  | nil => simp [dictSet]
  | cons p ps => unfold dictSet; split <;> simp

theorem dictUpdate_nonempty {β : Type} : ∀ (b a : List (String × β)), a ≠ [] → dictUpdate a b ≠ []
  | [], _, h => h
  | p :: ps, a, _ => dictUpdate_nonempty ps (dictSet a p.1 p.2) (dictSet_nonempty a p.1 p.2)

theorem dictUpdate_none {β : Type} {a b : List (String × β)} : dictUpdate a b = [] ↔ a = [] ∧ b = [] := by
  constructor
  · intro h
    cases b with
    | nil => exact ⟨h, rfl⟩
    | cons p ps => exact absurd h (dictUpdate_nonempty ps _ (dictSet_nonempty a p.1 p.2))
  · rintro ⟨rfl, rfl⟩; rfl

theorem stixDups_parts {n : Nat} {t a b : Node} (h : Parts n t a b) :
    (stix101GetDuplicates t = [] → stix101GetDuplicates a = [] ∧ stix101GetDuplicates b = []) ∧
    (stix101GetDuplicates a = [] → stix101GetDuplicates b = [] → IdsApart a b → stix101GetDuplicates t = []) := by
  unfold stix101GetDuplicates
  rw [dictUpdate_none, dictUpdate_none, dictUpdate_none]
  have h1 := dups_parts h Tables.stix101_nsmap
  have h2 := dups_parts h stix101Cybox.nsmap
  exact ⟨fun ht => ⟨⟨(h1.1 ht.1).1, (h2.1 ht.2).1⟩, ⟨(h1.1 ht.1).2, (h2.1 ht.2).2⟩⟩,
    fun ha hb hab => ⟨h1.2 ha.1 hb.1 hab, h2.2 ha.2 hb.2 hab⟩⟩

/-- One root node carries the right CybOX version. -/
def versionOk (v : String) (e : Elem) : Prop := ∃ found, cyboxGetVersion e = .ok found ∧ isVersionEqual v found = (.ok true : Except Err Bool)

theorem checkRoots_iff {v : String} : ∀ {cs : List Ctx}, cyboxCheckRoots v cs = .ok () ↔ ∀ c ∈ cs, versionOk v c.e
  | [] => by simp [cyboxCheckRoots]
  | c :: cs => by
    have ih := checkRoots_iff (v := v) (cs := cs)
    simp only [cyboxCheckRoots, List.mem_cons, forall_eq_or_imp]
    constructor
    · intro h
      split at h
      · cases h
      · next f hf =>
        split at h
        · cases h
        · next he => exact ⟨⟨f, hf, he⟩, ih.1 h⟩
        · cases h
    · rintro ⟨⟨f, hf, he⟩, h2⟩
      rw [hf]
      simp only [he]
      exact ih.2 h2

theorem cyboxCheck_parts {u : Cls} (hu : headOnly u.xpathRoots = true) {n : Nat} {t a b : Node} (h : Parts n t a b) :
    cyboxCheckVersion u t = .ok () ↔ cyboxCheckVersion u a = .ok () ∧ cyboxCheckVersion u b = .ok () := by
  have k : ∀ s : Node, cyboxCheckVersion u s = .ok () ↔
      ∀ c ∈ s.elems, u.xpathRoots.any (fun a => a.selects u.nsmap c) = true → versionOk u.version c.e := by
    intro s
    unfold cyboxCheckVersion Cls.rootNodes Node.xpath
    rw [checkRoots_iff]
    exact ⟨fun h c hc hs => h c (List.mem_filter.2 ⟨hc, hs⟩), fun h c hc => h c (List.mem_filter.1 hc).1 (List.mem_filter.1 hc).2⟩
  rw [k, k, k]
  refine forall_parts h (fun _ _ => Iff.rfl) (fun env e e' ks ks' he => ?_)
  rw [selects_head hu he (ks' := ks')]
  have : versionOk u.version e ↔ versionOk u.version e' := by
    unfold versionOk cyboxGetVersion Elem.get?
    rw [he.2.2]
  simp only [this]

theorem stixCheck_root {u : Cls} (hx : u.xpathRoots = xpathStixRoots) (hn : (XName.mk "stix" "STIX_Package").resolve u.nsmap = packageTag)
    {e : Elem} {ks : List Node} (he : e.tag = packageTag) : stixCheckVersion u (.elem e ks) =
      match stixGetVersion e with
      | none => .error .unknownVersion
      | some found =>
        if found = "" then .error .unknownVersion
        else
          match isVersionEqual found u.version with
          | .error x => .error x
          | .ok true => .ok ()
          | .ok false => .error (.invalidVersion (some (rootCtx e ks)) (some u.version) (some found)) := by
  have : ∃ l, u.rootNodes (.elem e ks) = rootCtx e ks :: l := by
    unfold Cls.rootNodes Node.xpath
    rw [elems_elem, hx, List.filter_cons_of_pos]
    · exact ⟨_, rfl⟩
    · simp only [xpathStixRoots, absX, List.any_cons, List.any_nil, Bool.or_false, XAlt.selects, rootCtx, hn, he, XPred.holds]
      simp
  obtain ⟨l, hl⟩ := this
  unfold stixCheckVersion
  rw [hl]
  rfl

theorem stixCheck_parts {u : Cls} (hx : u.xpathRoots = xpathStixRoots)
    (hn : (XName.mk "stix" "STIX_Package").resolve u.nsmap = packageTag) {n : Nat} {t a b : Node} (h : Parts n t a b)
    (ht : RootTag packageTag t) : (stixCheckVersion u a = .ok () ↔ stixCheckVersion u t = .ok ()) ∧
      (stixCheckVersion u b = .ok () ↔ stixCheckVersion u t = .ok ()) := by
  obtain ⟨e, ea, eb, ks, ls, hn', rfl, rfl, rfl, ha, hb⟩ := h
  obtain ⟨e', h1, h2⟩ := ht
  cases h1
  rw [stixCheck_root hx hn h2, stixCheck_root hx hn (by rw [ha.1]; exact h2), stixCheck_root hx hn (by rw [hb.1]; exact h2)]
  unfold stixGetVersion Elem.get?
  rw [ha.2.2, hb.2.2]
  cases e.attrs.get? attrVersion with
  | none => simp
  | some v =>
    simp only
    by_cases h0 : v = ""
    · simp [h0]
    · simp only [h0, if_false]
      cases (isVersionEqual v u.version : Except Err Bool) with
      | error x => simp
      | ok y => cases y <;> simp

/-- A check passes on a document when it passes on the parts, and on the parts when it passes on the document.  The `ids`
say whether the check looks at duplicate ids. -/
def CheckSplits (ids : Bool) (t : Node) (C : Node → Except Err Unit) : Prop := ∀ n a b, Parts n t a b →
  (C t = .ok () → C a = .ok () ∧ C b = .ok ()) ∧ (C a = .ok () → C b = .ok () → (ids = true → IdsApart a b) → C t = .ok ())

theorem CheckSplits.iff {t : Node} {C : Node → Except Err Unit}
    (h : ∀ n a b, Parts n t a b → (C t = .ok () ↔ C a = .ok () ∧ C b = .ok ())) (ids : Bool) : CheckSplits ids t C :=
  fun n a b hp => ⟨(h n a b hp).1, fun ha hb _ => (h n a b hp).2 ⟨ha, hb⟩⟩

theorem cybox20Check_splits {u : Cls} (hu : headOnly u.xpathRoots = true) (o : Options) (t : Node) :
    CheckSplits false t (cybox20Check u o) := by
  refine CheckSplits.iff (fun n a b hp => ?_) false
  unfold cybox20Check
  cases o.checkVersions with
  | false => simp
  | true => exact cyboxCheck_parts hu hp

theorem cybox201Check_ok {u : Cls} {o : Options} {t : Node} : cybox201Check u o t = .ok () ↔
    (o.checkVersions = true → cyboxCheckVersion u t = .ok ()) ∧ findAll u.disallowed t = .ok [] ∧ getDuplicates u.nsmap t = [] := by
  unfold cybox201Check
  constructor
  · intro h
    split at h
    · cases h
    · next hv =>
      simp only at h
      split at h
      · cases h
      · next dis hd =>
        split at h
        · next he =>
          simp only [Bool.and_eq_true, List.isEmpty_iff] at he
          refine ⟨fun ho => ?_, by rw [hd, he.1], he.2⟩
          rw [ho] at hv
          exact hv
        · cases h
  · rintro ⟨h1, h2, h3⟩
    have : (if o.checkVersions then cyboxCheckVersion u t else .ok ()) = .ok () := by
      cases ho : o.checkVersions with
      | false => rfl
      | true => exact h1 ho
    rw [this]
    simp only [h2, h3]
    rfl

theorem cybox201Check_splits {u : Cls} (hu : headOnly u.xpathRoots = true) (hd : u.disallowed = cybox201Disallowed) (o : Options)
    (t : Node) : CheckSplits true t (cybox201Check u o) := by
  intro n a b hp
  rw [cybox201Check_ok, cybox201Check_ok, cybox201Check_ok, hd]
  have h1 := cyboxCheck_parts hu hp
  have h2 := findAll_splits none_cybox201 hp
  have h3 := dups_parts hp u.nsmap
  constructor
  · rintro ⟨x, y, z⟩
    exact ⟨⟨fun ho => (h1.1 (x ho)).1, (h2.1 y).1, (h3.1 z).1⟩, ⟨fun ho => (h1.1 (x ho)).2, (h2.1 y).2, (h3.1 z).2⟩⟩
  · rintro ⟨x, y, z⟩ ⟨x', y', z'⟩ hi
    exact ⟨fun ho => h1.2 ⟨x ho, x' ho⟩, h2.2 ⟨y, y'⟩, h3.2 z z' (hi rfl)⟩

theorem stix10Check_ok {o : Options} {t : Node} : stix10Check o t = .ok () ↔
    (o.checkVersions = true → stixCheckVersion stix10Cls t = .ok () ∧ cyboxCheckVersion stix10Cybox t = .ok ()) ∧
      findAll stix10Disallowed t = .ok [] := by
  unfold stix10Check
  constructor
  · intro h
    split at h
    · cases h
    · next hv =>
      split at h
      · cases h
      · next dis hd =>
        split at h
        · next he =>
          refine ⟨fun ho => ?_, by rw [← List.isEmpty_iff.1 he]; exact hd⟩
          rw [ho] at hv
          simp only [if_true] at hv
          split at hv
          · cases hv
          · next hs => exact ⟨hs, hv⟩
        · cases h
  · rintro ⟨h1, h2⟩
    have h2' : stix10GetDisallowed t = .ok [] := h2
    cases ho : o.checkVersions with
    | false => simp only [h2', Bool.false_eq_true, if_false]; rfl
    | true =>
      obtain ⟨x, y⟩ := h1 ho
      simp only [if_true, x, y, h2']
      rfl

theorem stix101Check_ok {w : World} {o : Options} {t : Node} : stix101Check w o t = .ok () ↔
    (o.checkVersions = true → stixCheckVersion (stix101Cls w) t = .ok () ∧ cyboxCheckVersion stix101Cybox t = .ok ()) ∧
      findAll (stix101Disallowed w) t = .ok [] ∧ findAll cybox201Disallowed t = .ok [] ∧ stix101GetDuplicates t = [] := by
  have hdis : stix101GetDisallowed w t = .ok [] ↔ findAll (stix101Disallowed w) t = .ok [] ∧ findAll cybox201Disallowed t = .ok [] := by
    unfold stix101GetDisallowed
    constructor
    · intro h
      split at h
      · cases h
      · next a ha =>
        split at h
        · cases h
        · next b hb =>
          simp only [Except.ok.injEq, List.append_eq_nil_iff] at h
          obtain ⟨rfl, rfl⟩ := h
          exact ⟨ha, hb⟩
    · rintro ⟨h1, h2⟩
      have h2' : findAll stix101Cybox.disallowed t = .ok [] := h2
      rw [h1, h2']
      rfl
  rw [← and_assoc (c := stix101GetDuplicates t = []), ← hdis]
  unfold stix101Check
  constructor
  · intro h
    split at h
    · cases h
    · next hv =>
      simp only at h
      split at h
      · cases h
      · next dis hd =>
        split at h
        · next he =>
          simp only [Bool.and_eq_true, List.isEmpty_iff] at he
          refine ⟨fun ho => ?_, by rw [hd, he.1], he.2⟩
          rw [ho] at hv
          simp only [if_true] at hv
          split at hv
          · cases hv
          · next hs => exact ⟨hs, hv⟩
        · cases h
  · rintro ⟨h1, h2, h3⟩
    cases ho : o.checkVersions with
    | false => simp only [h2, h3, Bool.false_eq_true, if_false]; rfl
    | true =>
      obtain ⟨x, y⟩ := h1 ho
      simp only [if_true, x, y, h2, h3]
      rfl

theorem stix10Check_splits (o : Options) {t : Node} (ht : RootTag packageTag t) : CheckSplits false t (stix10Check o) := by
  refine CheckSplits.iff (fun n a b hp => ?_) false
  rw [stix10Check_ok, stix10Check_ok, stix10Check_ok]
  obtain ⟨ea, eb⟩ := stixCheck_parts (u := stix10Cls) rfl (by decide +kernel) hp ht
  rw [ea, eb]
  have h1 := cyboxCheck_parts (u := stix10Cybox) (by decide) hp
  have h2 := findAll_splits none_stix10 hp
  constructor
  · rintro ⟨x, y⟩
    exact ⟨⟨fun ho => ⟨(x ho).1, (h1.1 (x ho).2).1⟩, (h2.1 y).1⟩, ⟨fun ho => ⟨(x ho).1, (h1.1 (x ho).2).2⟩, (h2.1 y).2⟩⟩
  · rintro ⟨⟨x, y⟩, x', y'⟩
    exact ⟨fun ho => ⟨(x ho).1, h1.2 ⟨(x ho).2, (x' ho).2⟩⟩, h2.2 ⟨y, y'⟩⟩

theorem stix101Check_splits (w : World) (o : Options) {t : Node} (ht : RootTag packageTag t) :
    CheckSplits true t (stix101Check w o) := by
  intro n a b hp
  rw [stix101Check_ok, stix101Check_ok, stix101Check_ok]
  obtain ⟨ea, eb⟩ := stixCheck_parts (u := stix101Cls w) rfl (show XName.resolve Tables.stix101_nsmap ⟨"stix", "STIX_Package"⟩ = packageTag by decide +kernel) hp ht
  rw [ea, eb]
  have h1 := cyboxCheck_parts (u := stix101Cybox) (by decide) hp
  have h2 := findAll_splits (none_stix101 w) hp
  have h3 := findAll_splits none_cybox201 hp
  have h4 := stixDups_parts hp
  constructor
  · rintro ⟨x, y, z, q⟩
    exact ⟨⟨fun ho => ⟨(x ho).1, (h1.1 (x ho).2).1⟩, (h2.1 y).1, (h3.1 z).1, (h4.1 q).1⟩,
      ⟨fun ho => ⟨(x ho).1, (h1.1 (x ho).2).2⟩, (h2.1 y).2, (h3.1 z).2, (h4.1 q).2⟩⟩
  · rintro ⟨x, y, z, q⟩ ⟨x', y', z', q'⟩ hi
    exact ⟨fun ho => ⟨(x ho).1, h1.2 ⟨(x ho).2, (x' ho).2⟩⟩, h2.2 ⟨y, y'⟩, h3.2 ⟨z, z'⟩, h4.2 q q' (hi rfl)⟩

theorem stixOnly_splits {u : Cls} (hx : u.xpathRoots = xpathStixRoots)
    (hn : (XName.mk "stix" "STIX_Package").resolve u.nsmap = packageTag) (o : Options) {t : Node} (ht : RootTag packageTag t) :
    CheckSplits false t (fun t => if o.checkVersions then stixCheckVersion u t else .ok ()) := by
  refine CheckSplits.iff (fun n a b hp => ?_) false
  obtain ⟨ea, eb⟩ := stixCheck_parts hx hn hp ht
  cases o.checkVersions with
  | false => simp
  | true =>
    simp only [if_true, ea, eb]
    exact ⟨fun h => ⟨h, h⟩, fun h => h.1⟩

/-- Does the step look for duplicate ids? -/
def looksAtIds (v : String) : Bool := v == "1.0.1" || v == "2.0.1"

theorem stix_checks {w : World} {v : String} {u : Updater} (hu : assoc (stixUpdaters w) v = some u) (o : Options) {t : Node}
    (ht : RootTag packageTag t) : CheckSplits (looksAtIds v) t (u.check o) := by
  have hr := assoc_mem hu
  simp only [stixUpdaters, List.mem_cons, Prod.mk.injEq, List.not_mem_nil, or_false] at hr
  rcases hr with ⟨rfl, rfl⟩ | ⟨rfl, rfl⟩ | ⟨rfl, rfl⟩ | ⟨rfl, rfl⟩ | ⟨rfl, rfl⟩
  · exact stix10Check_splits o ht
  · exact stix101Check_splits w o ht
  · exact stixOnly_splits (u := stix11Cls w) rfl (show XName.resolve Tables.stix11_nsmap ⟨"stix", "STIX_Package"⟩ = packageTag by decide +kernel) o ht
  · exact stixOnly_splits (u := stix111Cls) rfl (by decide +kernel) o ht
  · exact stixOnly_splits (u := stix12Cls) rfl (by decide +kernel) o ht

theorem cybox_checks {v : String} {u : Updater} (hu : assoc cyboxUpdaters v = some u) (o : Options) (t : Node) :
    CheckSplits (looksAtIds v) t (u.check o) := by
  have hr := assoc_mem hu
  simp only [cyboxUpdaters, List.mem_cons, Prod.mk.injEq, List.not_mem_nil, or_false] at hr
  rcases hr with ⟨rfl, rfl⟩ | ⟨rfl, rfl⟩
  · exact cybox20Check_splits (by decide) o t
  · exact cybox201Check_splits (by decide) rfl o t

/-! ## Ids -/

theorem noId_edit {F : Ctx → Elem} (hF : ∀ c, (F c).get? attrId = c.e.get? attrId) {i : String} {t : Node} (h : NoId i t) :
    NoId i (t.edit F) := by
  intro c' hc'
  obtain ⟨h1, h2⟩ := mem_descs_iff.1 hc'
  obtain ⟨c, hc, _, he, hl, _⟩ := mem_edit h1
  rw [he, hF]
  refine h c (mem_descs_iff.2 ⟨hc, fun h0 => h2 ?_⟩)
  rw [h0] at hl
  exact List.length_eq_zero_iff.1 hl

theorem updateNode_id {v : Vocab} {e e' : Elem} (h : v.updateNode e = .ok e') : e'.get? attrId = e.get? attrId := by
  simp only [Vocab.updateNode] at h
  split at h
  · cases h
  · split at h
    · cases h
    · next e2 he2 =>
      have h2 : e2.get? attrId = e.get? attrId := by
        split at he2
        · split at he2
          · simp only [Except.ok.injEq] at he2
            rw [← he2, Elem.get?_set, if_neg (by decide), Elem.get?_set, if_neg (by decide)]
          · cases he2
        · simp only [Except.ok.injEq] at he2
          rw [← he2, Elem.get?_set, if_neg (by decide)]
      have h3 : (if e2.has attrVocabName = true then e2.set attrVocabName v.name else e2).get? attrId = e.get? attrId := by
        split
        · rw [Elem.get?_set, if_neg (by decide), h2]
        · exact h2
      split at h
      · split at h
        · simp only [Except.ok.injEq] at h; rw [← h]; exact h3
        · simp only [Except.ok.injEq] at h; rw [← h]; exact h3
      · simp only [Except.ok.injEq] at h; rw [← h]; exact h3

theorem noId_vocab {v : Vocab} {t t' : Node} (h : v.update t = .ok t') {i : String} (hi : NoId i t) : NoId i t' := by
  rw [(vocabUpdate_eq h).1]
  refine noId_edit (fun c => ?_) hi
  unfold Vocab.edit
  split
  · split
    · next e' he => exact updateNode_id he
    · rfl
  · rfl

theorem noId_vocabs {b : Bool} {vs : List Vocab} {t t' : Node} (h : (if b then updateVocabs vs t else .ok t) = .ok t')
    {i : String} (hi : NoId i t) : NoId i t' := by
  cases b with
  | false => simp only [Bool.false_eq_true, if_false, Except.ok.injEq] at h; rw [← h]; exact hi
  | true =>
    simp only [if_true] at h
    exact foldE_inv (fun s => NoId i s) vs t t' (fun s v s' _ hs hv => noId_vocab hv hs) hi h

theorem noId_schemalocs (u : Cls) {t : Node} {i : String} (hi : NoId i t) : NoId i (u.updateSchemalocs t) := by
  rw [updateSchemalocs_eq]
  refine noId_edit (fun c => ?_) hi
  unfold schemalocEdit
  split
  · exact updateSchemalocsElem_get? u c.e (by decide)
  · rfl

theorem noId_cybox20 {u : Cls} {o : Options} {t d : Node} (h : cybox20Update u o t = .ok d) {i : String} (hi : NoId i t) :
    NoId i d := by
  refine noId_vocabs h ?_
  rw [updateLists_eq]
  refine noId_edit (fun c => ?_) ?_
  · unfold listsEdit Elem.get?
    rw [(iter_lists_keeps _ c.e).2.2.1]
  · rw [cybox20Versions_eq]
    refine noId_edit (fun c => ?_) (noId_schemalocs u hi)
    unfold versionEdit
    split
    · unfold setVersion201
      rw [Elem.get?_set, if_neg (by decide), Elem.get?_set, if_neg (by decide), Elem.get?_set, if_neg (by decide)]
    · rfl

theorem noId_stix10 {o : Options} {t d : Node} (h : stix10Update o t = .ok d) {i : String} (hi : NoId i t) : NoId i d := by
  simp only [stix10Update] at h
  split at h
  · cases h
  · next t1 h1 =>
    refine noId_vocabs h ?_
    rw [updateNamespaces_nil (u := stix10Cls) rfl, stixVersions_eq]
    refine noId_edit (fun c => ?_) (noId_schemalocs _ (noId_cybox20 h1 hi))
    unfold versionEdit
    split
    · unfold setStixVersion
      rw [Elem.get?_set, if_neg (by decide)]
    · rfl

/-! ## Chains without force -/

/-- The documents of an unforced run. -/
def plainRun (reg : List (String × Updater)) (o : Options) : List String → Node → Except Err Node
  | [], t => .ok t
  | v :: vs, t =>
    match assoc reg v with
    | none => .error .keyError
    | some u =>
      match tryUpdate u o t with
      | .error x => .error x
      | .ok d => plainRun reg o vs d

theorem chainLoop_plain {reg : List (String × Updater)} {o : Options} : ∀ (vs : List String) (t : Node) (k : Nat),
    chainLoop reg o false vs ⟨t, [], []⟩ k = (plainRun reg o vs t).map (fun d => (⟨d, [], []⟩, k))
  | [], t, k => rfl
  | v :: vs, t, k => by
    simp only [chainLoop, plainRun]
    cases hu : assoc reg v with
    | none => rfl
    | some u =>
      simp only [stepUpdate, Bool.and_false, Bool.false_eq_true, if_false]
      cases ht : tryUpdate u o t with
      | error x => rfl
      | ok d => exact chainLoop_plain vs d k

theorem tryUpdate_ok {u : Updater} {o : Options} {t d : Node} : tryUpdate u o t = .ok d ↔ u.check o t = .ok () ∧ u.update o t = .ok d := by
  unfold tryUpdate
  cases u.check o t with
  | error x => simp
  | ok _ => simp

/-- Release lists in which nothing follows the last STIX step, and only the first steps precede one that looks at ids. -/
def orderly : List String → Bool
  | [] => true
  | v :: vs => (v != "1.2" || vs.isEmpty) && (!vs.any looksAtIds || v == "1.0" || v == "2.0") && orderly vs

theorem run_parts {reg : List (String × Updater)} {I : Node → Prop} {o : Options}
    (hsp : ∀ v u, assoc reg v = some u → Splits (fun t => u.update o t))
    (hch : ∀ v u t, assoc reg v = some u → I t → CheckSplits (looksAtIds v) t (u.check o))
    (hrt : ∀ v u t d, assoc reg v = some u → v ≠ "1.2" → I t → u.update o t = .ok d → I d)
    (hid : ∀ v u t d i, assoc reg v = some u → v = "1.0" ∨ v = "2.0" → u.update o t = .ok d → NoId i t → NoId i d) :
    ∀ (vs : List String) (n : Nat) (t a b : Node), orderly vs = true → Parts n t a b → (vs ≠ [] → I t) →
      (∀ d, plainRun reg o vs t = .ok d → ∃ n' a' b', plainRun reg o vs a = .ok a' ∧ plainRun reg o vs b = .ok b' ∧
        Parts n' d a' b') ∧
      (∀ a' b', plainRun reg o vs a = .ok a' → plainRun reg o vs b = .ok b' → (vs.any looksAtIds = true → IdsApart a b) →
        ∃ d, plainRun reg o vs t = .ok d)
  | [], n, t, a, b, _, hp, _ => by
    refine ⟨fun d hd => ?_, fun _ _ _ _ _ => ⟨t, rfl⟩⟩
    cases hd
    exact ⟨n, a, b, rfl, rfl, hp⟩
  | v :: vs, n, t, a, b, ho, hp, hr => by
    simp only [orderly, Bool.and_eq_true] at ho
    obtain ⟨⟨h12, hids⟩, hvs⟩ := ho
    have hrt' := hr (by simp)
    simp only [plainRun]
    cases hu : assoc reg v with
    | none => exact ⟨fun d hd => (by cases hd), fun _ _ h => (by cases h)⟩
    | some u =>
      have hS := hsp v u hu n t a b hp
      have hC := hch v u t hu hrt' n a b hp
      have hne : vs ≠ [] → v ≠ "1.2" := by
        intro hv he
        rw [he] at h12
        simp only [bne_self_eq_false, Bool.false_or, List.isEmpty_iff] at h12
        exact hv h12
      simp only
      constructor
      · intro d hd
        split at hd
        · cases hd
        · next d1 hd1 =>
          obtain ⟨h1, h2⟩ := tryUpdate_ok.1 hd1
          obtain ⟨n1, a1, b1, ha1, hb1, hp1⟩ := hS.1 d1 h2
          obtain ⟨n2, a2, b2, ha2, hb2, hp2⟩ := (run_parts hsp hch hrt hid vs n1 d1 a1 b1 hvs hp1
            (fun hv => hrt v u t d1 hu (hne hv) hrt' h2)).1 d hd
          rw [tryUpdate_ok.2 ⟨(hC.1 h1).1, ha1⟩, tryUpdate_ok.2 ⟨(hC.1 h1).2, hb1⟩]
          exact ⟨n2, a2, b2, ha2, hb2, hp2⟩
      · intro a' b' ha hb hi
        split at ha
        · cases ha
        · next a1 ha1 =>
          split at hb
          · cases hb
          · next b1 hb1 =>
            obtain ⟨ca, ua⟩ := tryUpdate_ok.1 ha1
            obtain ⟨cb, ub⟩ := tryUpdate_ok.1 hb1
            obtain ⟨d1, hd1⟩ := hS.2 a1 b1 ua ub
            have hc := hC.2 ca cb (fun hl => hi (by simp only [List.any_cons, hl, Bool.true_or]))
            rw [tryUpdate_ok.2 ⟨hc, hd1⟩]
            obtain ⟨n1, a2, b2, ha2, hb2, hp1⟩ := hS.1 d1 hd1
            cases ua.symm.trans ha2
            cases ub.symm.trans hb2
            refine (run_parts hsp hch hrt hid vs n1 d1 a1 b1 hvs hp1 (fun hv => hrt v u t d1 hu (hne hv) hrt' hd1)).2 a' b' ha hb ?_
            intro hl
            have hap := hi (by simp only [List.any_cons, hl, Bool.or_true])
            have hv : v = "1.0" ∨ v = "2.0" := by
              rw [hl] at hids
              simpa using hids
            intro i
            rcases hap i with h | h
            · exact Or.inl (hid v u a a1 i hu hv ua h)
            · exact Or.inr (hid v u b b1 i hu hv ub h)

theorem stix_orderly : ∀ s ∈ stixReleases, ∀ g ∈ stixReleases, orderly (between stixReleases s g) = true := by decide

theorem cybox_orderly : ∀ s ∈ cyboxReleases, ∀ g ∈ cyboxReleases, orderly (between cyboxReleases s g) = true := by decide

theorem stix_run_parts (w : World) (o : Options) {s g : String} (hs : s ∈ stixReleases) (hg : g ∈ stixReleases) {n : Nat}
    {t a b : Node} (hp : Parts n t a b) (ht : RootTag packageTag t) :
    (∀ d, plainRun (stixUpdaters w) o (between stixReleases s g) t = .ok d → ∃ n' a' b',
      plainRun (stixUpdaters w) o (between stixReleases s g) a = .ok a' ∧
      plainRun (stixUpdaters w) o (between stixReleases s g) b = .ok b' ∧ Parts n' d a' b') ∧
    (∀ a' b', plainRun (stixUpdaters w) o (between stixReleases s g) a = .ok a' →
      plainRun (stixUpdaters w) o (between stixReleases s g) b = .ok b' → IdsApart a b →
      ∃ d, plainRun (stixUpdaters w) o (between stixReleases s g) t = .ok d) := by
  have h := run_parts (reg := stixUpdaters w) (I := RootTag packageTag) (o := o)
    (fun v u hu => registered_splits (registered_stix hu) o)
    (fun v u t hu ht => stix_checks hu o ht)
    (fun v u t d hu hv ht hd => by
      obtain ⟨e, he, _, _, hq⟩ := stix_update_root hu hd ht
      exact ⟨e, he, hq hv⟩)
    (fun v u t d i hu hv hd hi => by
      rcases hv with rfl | rfl
      · cases hu; exact noId_stix10 hd hi
      · cases hu) _ n t a b (stix_orderly s hs g hg) hp (fun _ => ht)
  exact ⟨h.1, fun a' b' ha hb hi => h.2 a' b' ha hb (fun _ => hi)⟩

theorem cybox_run_parts (o : Options) {s g : String} (hs : s ∈ cyboxReleases) (hg : g ∈ cyboxReleases) {n : Nat}
    {t a b : Node} (hp : Parts n t a b) :
    (∀ d, plainRun cyboxUpdaters o (between cyboxReleases s g) t = .ok d → ∃ n' a' b',
      plainRun cyboxUpdaters o (between cyboxReleases s g) a = .ok a' ∧
      plainRun cyboxUpdaters o (between cyboxReleases s g) b = .ok b' ∧ Parts n' d a' b') ∧
    (∀ a' b', plainRun cyboxUpdaters o (between cyboxReleases s g) a = .ok a' →
      plainRun cyboxUpdaters o (between cyboxReleases s g) b = .ok b' → IdsApart a b →
      ∃ d, plainRun cyboxUpdaters o (between cyboxReleases s g) t = .ok d) := by
  have h := run_parts (reg := cyboxUpdaters) (I := fun _ => True) (o := o)
    (fun v u hu => registered_splits (w := ⟨fun _ => true, fun _ => none⟩) (registered_cybox hu) o)
    (fun v u t hu ht => cybox_checks hu o t)
    (fun _ _ _ _ _ _ _ _ => trivial)
    (fun v u t d i hu hv hd hi => by
      rcases hv with rfl | rfl
      · cases hu
      · cases hu; exact noId_cybox20 hd hi) _ n t a b (cybox_orderly s hs g hg) hp (fun _ => trivial)
  exact ⟨h.1, fun a' b' ha hb hi => h.2 a' b' ha hb (fun _ => hi)⟩

end Ramrod
