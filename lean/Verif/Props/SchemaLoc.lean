import Verif.Lemmas.Words
import Verif.Props.Release
/-!
# xsi:schemaLocation: C17, C18
-/

set_option linter.unusedSimpArgs false

namespace Ramrod

open Samples

/-! ## Specification vocabulary -/

/-- A non-empty string without white space. -/
def IsWord (w : String) : Prop := w.toList ≠ [] ∧ ∀ c ∈ w.toList, isSpace c = false

/-- `Words cs ws`: the text `cs` consists of the words `ws`, in order, separated by white space. -/
inductive Words : List Char → List String → Prop
  | blank {sp} : (∀ c ∈ sp, isSpace c = true) → Words sp []
  | word {sp w rest ws} : (∀ c ∈ sp, isSpace c = true) → IsWord w →
      (rest = [] ∨ ∃ c cs, rest = c :: cs ∧ isSpace c = true) → Words rest ws →
      Words (sp ++ w.toList ++ rest) (w :: ws)

/-- The words of a list of pairs. -/
def flatPairs (ps : List (String × String)) : List String := ps.flatMap (fun p => [p.1, p.2])

/-- The attribute value `v` lists the pairs `ps`, possibly followed by one odd word. -/
def ListsPairs (v : String) (ps : List (String × String)) : Prop :=
  ∃ odd, odd.length ≤ 1 ∧ Words v.toList (flatPairs ps ++ odd)

/-- The schema-location tables of a step: namespaces whose pairs vanish, renamed namespaces, and known
schema locations. -/
structure LocTables where
  dropped : List String
  renamed : List (String × String)
  locations : List (String × String)

/-- What happens to one pair: `none` when it vanishes. -/
def LocTables.rewrite (T : LocTables) (p : String × String) : Option (String × String) :=
  if p.1 ∈ T.dropped then none
  else
    let ns := match assoc T.renamed p.1 with | some n => n | none => p.1
    some (ns, match assoc T.locations ns with | some l => l | none => p.2)

/-- Rewriting with several tables, one after the other. -/
def rewriteAll (Ts : List LocTables) (ps : List (String × String)) : List (String × String) :=
  Ts.foldl (fun ps T => ps.filterMap T.rewrite) ps

/-- The tables a step applies, in order.  STIX steps that embed CybOX content first apply the tables of
the CybOX step. -/
inductive StepTables (w : World) : Updater → List LocTables → Prop
  | cybox20 : StepTables w cybox20 [⟨[], [], Tables.cybox20_schemalocMap⟩]
  | cybox201 : StepTables w cybox201 [⟨[], Tables.cybox201_updateNsMap, Tables.cybox201_schemalocMap⟩]
  | stix10 : StepTables w stix10
      [⟨[], [], Tables.cybox20_schemalocMap⟩, ⟨Tables.stix10_disallowedNs, [], Tables.stix10_schemalocMap⟩]
  | stix101 : StepTables w (stix101 w)
      [⟨[], Tables.cybox201_updateNsMap, Tables.cybox201_schemalocMap⟩,
       ⟨Tables.stix101_disallowedNs, [], Tables.stix101_schemalocMap⟩]
  | stix11 : StepTables w (stix11 w)
      [⟨[], Tables.cybox201_updateNsMap, Tables.cybox201_schemalocMap⟩, ⟨[], [], Tables.stix11_schemalocMap⟩]
  | stix111 : StepTables w stix111 [⟨[], [], Tables.stix111_schemalocMap⟩]
  | stix12 : StepTables w stix12 [⟨[], Tables.stix12_updateNsMap, []⟩]

/-- Attribute of the root element. -/
def rootAttr (t : Node) (k : QName) : Option String :=
  match t.root? with
  | some e => e.get? k
  | none => none

/-! ## Words -/

theorem words_split : ∀ (n : Nat) (cs : List Char), cs.length ≤ n →
    Words cs ((pieces isSpace cs).map String.ofList)
  | n, cs, hn => by
    rcases pieces_split isSpace cs with h | ⟨sp, w, rest, rfl, h1, h2, h3, h4⟩
    · have : pieces isSpace cs = [] := by
        have := pieces_seps (p := isSpace) (sp := cs) (cs := []) h
        rw [List.append_nil] at this
        rw [this]; rfl
      rw [this]; exact Words.blank h
    · have hlen : rest.length < (sp ++ w ++ rest).length := by
        have : 0 < w.length := List.length_pos_iff.2 h2
        simp only [List.length_append]; omega
      cases n with
      | zero => omega
      | succ n =>
        have ih := words_split n rest (by omega)
        rw [List.append_assoc, pieces_seps h1, pieces_word h3 h2 h4, ← List.append_assoc]
        have : sp ++ w ++ rest = sp ++ (String.ofList w).toList ++ rest := by simp
        rw [this]
        exact Words.word h1 ⟨by simpa using h2, by simpa using h3⟩ h4 ih

theorem words_pySplitWs (s : String) : Words s.toList (pySplitWs s) := words_split _ _ (Nat.le_refl _)

theorem words_pieces {cs : List Char} {ws : List String} (h : Words cs ws) :
    (pieces isSpace cs).map String.ofList = ws := by
  induction h with
  | @blank sp h =>
    have := pieces_seps (p := isSpace) (sp := sp) (cs := []) h
    rw [List.append_nil] at this
    rw [this]; rfl
  | @word sp w rest ws h1 h2 h4 _ ih =>
    rw [List.append_assoc, pieces_seps h1, pieces_word h2.2 h2.1 h4]
    simp [ih]

/-- A text has only one list of words. -/
theorem words_unique {s : String} {ws : List String} (h : Words s.toList ws) : pySplitWs s = ws := words_pieces h

theorem words_isWord {cs : List Char} {ws : List String} (h : Words cs ws) : ∀ w ∈ ws, IsWord w := by
  induction h with
  | blank _ => simp
  | word _ h2 _ _ ih => intro w hw; exact (List.mem_cons.1 hw).elim (fun e => e ▸ h2) (ih w)

theorem pairUp_flat : ∀ (ps : List (String × String)) (odd : List String), odd.length ≤ 1 →
    pairUp (flatPairs ps ++ odd) = ps
  | [], odd, h => by
    match odd, h with
    | [], _ => rfl
    | [_], _ => rfl
  | p :: ps, odd, h => by
    have := pairUp_flat ps odd h
    simp only [flatPairs, List.flatMap_cons] at this ⊢
    simp [pairUp, this]

theorem flat_pairUp : ∀ ws : List String, ∃ odd, odd.length ≤ 1 ∧ ws = flatPairs (pairUp ws) ++ odd
  | [] => ⟨[], by simp, rfl⟩
  | [a] => ⟨[a], by simp, rfl⟩
  | a :: b :: rest => by
    obtain ⟨odd, h, e⟩ := flat_pairUp rest
    refine ⟨odd, h, ?_⟩
    simp only [pairUp, flatPairs, List.flatMap_cons] at e ⊢
    simp [← e]

theorem listsPairs_iff (v : String) (ps : List (String × String)) :
    ListsPairs v ps ↔ getSchemalocPairs v = ps := by
  constructor
  · rintro ⟨odd, h, hw⟩
    unfold getSchemalocPairs
    rw [words_unique hw, pairUp_flat ps odd h]
  · intro h
    obtain ⟨odd, ho, e⟩ := flat_pairUp (pySplitWs v)
    refine ⟨odd, ho, ?_⟩
    have := words_pySplitWs v
    rw [e] at this
    rw [← h]; exact this

theorem pairs_isWord {v : String} {p : String × String} (h : p ∈ getSchemalocPairs v) : IsWord p.1 ∧ IsWord p.2 := by
  obtain ⟨odd, ho, e⟩ := flat_pairUp (pySplitWs v)
  have hw := words_isWord (words_pySplitWs v)
  rw [e] at hw
  have h1 : p.1 ∈ flatPairs (pairUp (pySplitWs v)) := List.mem_flatMap.2 ⟨p, h, by simp⟩
  have h2 : p.2 ∈ flatPairs (pairUp (pySplitWs v)) := List.mem_flatMap.2 ⟨p, h, by simp⟩
  exact ⟨hw _ (by simp [h1]), hw _ (by simp [h2])⟩

theorem joinL_pieces {sep : List Char} (hsep : ∀ c ∈ sep, isSpace c = true) (h0 : sep ≠ []) :
    ∀ (ps : List (String × String)), (∀ p ∈ ps, IsWord p.1 ∧ IsWord p.2) →
    pieces isSpace (joinL sep (ps.map (fun p => p.1.toList ++ ' ' :: p.2.toList))) =
      (flatPairs ps).map String.toList
  | [], _ => rfl
  | [p], h => by
    obtain ⟨h1, h2⟩ := h p (by simp)
    simp only [List.map_cons, List.map_nil, joinL]
    have hsp : isSpace ' ' = true := by decide
    rw [pieces_word h1.2 h1.1 (Or.inr ⟨' ', p.2.toList, rfl, hsp⟩), pieces_sep hsp]
    have := pieces_word (p := isSpace) (rest := []) h2.2 h2.1 (Or.inl rfl)
    rw [List.append_nil] at this
    rw [this]; rfl
  | p :: q :: ps, h => by
    obtain ⟨h1, h2⟩ := h p (by simp)
    have ih := joinL_pieces hsep h0 (q :: ps) (fun r hr => h r (by simp [hr]))
    have hsp : isSpace ' ' = true := by decide
    obtain ⟨c, cs, rfl⟩ := List.exists_cons_of_ne_nil h0
    simp only [List.map_cons, joinL] at ih ⊢
    simp only [List.append_assoc, List.cons_append]
    rw [pieces_word h1.2 h1.1 (Or.inr ⟨' ', _, rfl, hsp⟩), pieces_sep hsp,
      pieces_word h2.2 h2.1 (Or.inr ⟨c, _, rfl, hsep c (by simp)⟩), pieces_sep (hsep c (by simp)),
      pieces_seps (fun d hd => hsep d (by simp [hd]))]
    rw [ih]; rfl

theorem words_create {ps : List (String × String)} (h : ∀ p ∈ ps, IsWord p.1 ∧ IsWord p.2) :
    pySplitWs (createSchemalocStr ps) = flatPairs ps := by
  show (pieces isSpace (createSchemalocStr ps).toList).map String.ofList = _
  have e : (createSchemalocStr ps).toList = joinL "   ".toList (ps.map (fun p => p.1.toList ++ ' ' :: p.2.toList)) := by
    simp only [createSchemalocStr, pyJoin, String.toList_ofList, List.map_map]
    congr 1
    apply List.map_congr_left
    intro p _
    simp
  rw [e, joinL_pieces (by decide) (by decide) ps h]
  simp

theorem read_create {ps : List (String × String)} (h : ∀ p ∈ ps, IsWord p.1 ∧ IsWord p.2) :
    getSchemalocPairs (createSchemalocStr ps) = ps := by
  unfold getSchemalocPairs
  rw [words_create h]
  have := pairUp_flat ps [] (by simp)
  rwa [List.append_nil] at this

/-! ## One rewriting pass -/

/-- The tables of a class. -/
def Cls.locTables (u : Cls) : LocTables := ⟨u.disallowedNs, u.updateNsMap, u.schemalocMap⟩

theorem remap_clean (u : Cls) (ps : List (String × String)) :
    u.remapSchemalocs (u.cleanSchemalocs ps) = ps.filterMap u.locTables.rewrite := by
  unfold Cls.remapSchemalocs Cls.cleanSchemalocs
  induction ps with
  | nil => rfl
  | cons p ps ih =>
    by_cases h : p.1 ∈ u.disallowedNs
    · rw [List.filter_cons_of_neg (by simp [h]), ih, List.filterMap_cons_none]
      simp [LocTables.rewrite, Cls.locTables, h]
    · rw [List.filter_cons_of_pos (by simp [h]), List.map_cons, ih, List.filterMap_cons_some]
      simp only [LocTables.rewrite, Cls.locTables, h, if_false]
      congr 1
      · cases assoc u.updateNsMap p.1 <;> simp <;> (try (cases assoc u.schemalocMap _ <;> rfl))

/-- All replacement names and locations of a table are words. -/
def LocTables.Wordy (T : LocTables) : Prop := (∀ p ∈ T.renamed, IsWord p.2) ∧ ∀ p ∈ T.locations, IsWord p.2

theorem isWord_ofList {cs : List Char} (h : (!cs.isEmpty && cs.all (fun c => !isSpace c)) = true) :
    IsWord (String.ofList cs) := by
  simp only [Bool.and_eq_true, List.all_eq_true] at h
  constructor
  · intro h'; simp at h'; subst h'; simp at h
  · intro c hc; simp at hc; simpa using h.2 c hc

/-- All second components are words, entry by entry (evaluating `toList` on a literal is slow). -/
macro "all_words" : tactic =>
  `(tactic| (simp only [List.forall_mem_cons]
             repeat (first | exact List.forall_mem_nil _ | refine ⟨isWord_ofList (by decide +kernel), ?_⟩)))

theorem rewrite_words {T : LocTables} (hT : T.Wordy) {ps : List (String × String)}
    (h : ∀ p ∈ ps, IsWord p.1 ∧ IsWord p.2) : ∀ p ∈ ps.filterMap T.rewrite, IsWord p.1 ∧ IsWord p.2 := by
  intro q hq
  obtain ⟨p, hp, e⟩ := List.mem_filterMap.1 hq
  unfold LocTables.rewrite at e
  split at e
  · cases e
  · simp only [Option.some.injEq] at e
    subst e
    constructor
    · show IsWord (match assoc T.renamed p.1 with | some n => n | none => p.1)
      split
      · next n hn => exact hT.1 _ (assoc_mem hn)
      · exact (h p hp).1
    · show IsWord (match assoc T.locations _ with | some n => n | none => p.2)
      split
      · next n hn => exact hT.2 _ (assoc_mem hn)
      · exact (h p hp).2

/-- The attribute value after rewriting with one class. -/
theorem rootAttr_schemalocs (u : Cls) (t : Node) :
    rootAttr (u.updateSchemalocs t) tagSchemaLoc =
      (rootAttr t tagSchemaLoc).map
        (fun v => createSchemalocStr ((getSchemalocPairs v).filterMap u.locTables.rewrite)) := by
  unfold rootAttr
  rw [root_updateSchemalocs]
  cases t.root? with
  | none => rfl
  | some e =>
    simp only [Option.map_some]
    unfold Cls.updateSchemalocsElem
    cases h : e.get? tagSchemaLoc with
    | none => simp [h]
    | some v => simp only [Option.map_some, Elem.get?_set, if_true, remap_clean]

theorem rootAttr_of_root {t t' : Node} (h : t'.root? = t.root?) (k : QName) : rootAttr t' k = rootAttr t k := by
  unfold rootAttr; rw [h]

theorem rootAttr_modify {t : Node} {m : List (String × String)} {alts : List XAlt} {g : Elem → Elem} {k : QName}
    (hg : ∀ e, (g e).get? k = e.get? k) :
    rootAttr (t.modifyAll ((t.xpath m alts).map (·.pos)) g) k = rootAttr t k := by
  cases t with
  | other _ _ => rfl
  | elem e ks =>
    unfold rootAttr
    rw [root_modify_xpath]
    simp only [Node.root?]
    split
    · exact hg e
    · rfl

theorem rootAttr_namespaces (u : Cls) (t : Node) (k : QName) :
    rootAttr (u.updateNamespaces [] t) k = rootAttr t k := by
  cases t with
  | other _ _ => rfl
  | elem e ks =>
    unfold rootAttr
    rw [root_updateNamespaces]
    simp only [Node.root?]
    split
    · rfl
    · rfl

theorem setVersion201_get? (e : Elem) : (setVersion201 e).get? tagSchemaLoc = e.get? tagSchemaLoc := by
  simp [setVersion201, Elem.get?_set, attrMajor, attrMinor, attrUpdate, QName.plain, tagSchemaLoc]

theorem setVersion21_get? (e : Elem) : (setVersion21 e).get? tagSchemaLoc = e.get? tagSchemaLoc := by
  simp [setVersion21, Elem.get?_set, Elem.get?_del, attrMajor, attrMinor, attrUpdate, QName.plain, tagSchemaLoc]

theorem setStixVersion_get? (i v : String) (e : Elem) :
    (setStixVersion i v e).get? tagSchemaLoc = e.get? tagSchemaLoc := by
  simp [setStixVersion, Elem.get?_set, attrVersion, QName.plain, tagSchemaLoc]

theorem cybox20Update_schemaloc {u : Cls} {o : Options} {t d : Node} (h : cybox20Update u o t = .ok d) :
    rootAttr d tagSchemaLoc = (rootAttr t tagSchemaLoc).map
        (fun v => createSchemalocStr ((getSchemalocPairs v).filterMap u.locTables.rewrite)) := by
  simp only [cybox20Update] at h
  rw [rootAttr_of_root (root_vocabsIf h), rootAttr_of_root (root_updateLists u _)]
  unfold cybox20UpdateVersions Cls.versionedNodes
  rw [rootAttr_modify setVersion201_get?, rootAttr_schemalocs]

theorem cybox201Update_schemaloc {n : List (String × String)} {sel : List XAlt} {o : Options} {t d : Node}
    (h : cybox201Update (cybox201Cls n sel) o t = .ok d) :
    rootAttr d tagSchemaLoc = (rootAttr t tagSchemaLoc).map
        (fun v => createSchemalocStr ((getSchemalocPairs v).filterMap (cybox201Cls n sel).locTables.rewrite)) := by
  simp only [cybox201Update] at h
  split at h
  · cases h
  · next t1 h1 =>
    split at h
    · cases h
    · next t2 h2 =>
      rw [rootAttr_of_root (root_optionalsIf h), rootAttr_of_root (root_vocabsIf h2),
        rootAttr_of_root (root_translateFields belowRoot_cybox201 h1)]
      unfold cybox201UpdateVersions Cls.versionedNodes
      rw [rootAttr_modify setVersion21_get?, rootAttr_schemalocs, rootAttr_namespaces]

theorem rootAttr_setRootVersion (v : String) (t : Node) :
    rootAttr (setRootVersion v t) tagSchemaLoc = rootAttr t tagSchemaLoc := by
  cases t with
  | other _ _ => rfl
  | elem e ks =>
    simp [rootAttr, setRootVersion, Node.root?, Elem.get?_set, attrVersion, QName.plain, tagSchemaLoc]

/-- The effect of a list of tables on the attribute. -/
def locEffect (Ts : List LocTables) (v : Option String) : Option String :=
  Ts.foldl (fun v T => v.map (fun v => createSchemalocStr ((getSchemalocPairs v).filterMap T.rewrite))) v

theorem update_schemaloc {w : World} {u : Updater} {Ts : List LocTables} (hT : StepTables w u Ts)
    {o : Options} {t d : Node} (h : u.update o t = .ok d) :
    rootAttr d tagSchemaLoc = locEffect Ts (rootAttr t tagSchemaLoc) := by
  cases hT with
  | cybox20 =>
    have := cybox20Update_schemaloc (u := cybox20Cls Tables.cybox20_nsmap xpathObservables) h
    rw [this]; simp only [locEffect, List.foldl_cons, List.foldl_nil, Cls.locTables, cybox20Cls]
  | cybox201 =>
    have := cybox201Update_schemaloc (n := Tables.cybox201_nsmap) (sel := xpathObservables) h
    rw [this]; simp only [locEffect, List.foldl_cons, List.foldl_nil, Cls.locTables, cybox201Cls]
  | stix10 =>
    change stix10Update o t = .ok d at h
    simp only [stix10Update] at h
    split at h
    · cases h
    · next t1 h1 =>
      rw [rootAttr_of_root (root_vocabsIf h)]
      unfold stixUpdateVersions Cls.versionedNodes
      rw [rootAttr_modify (setStixVersion_get? _ _), rootAttr_schemalocs, rootAttr_namespaces,
        cybox20Update_schemaloc h1]
      simp only [locEffect, List.foldl_cons, List.foldl_nil, Cls.locTables, cybox20Cls, cybox201Cls, stix10Cls, stix101Cls, stix11Cls, stix111Cls, stix12Cls, stix10Cybox, stix101Cybox, stix11Cybox]
  | stix101 =>
    change stix101Update w o t = .ok d at h
    simp only [stix101Update] at h
    split at h
    · cases h
    · next t1 h1 =>
      split at h
      · cases h
      · next t2 h2 =>
        split at h
        · cases h
        · next t3 h3 =>
          rw [rootAttr_of_root (root_optionalsIf h), rootAttr_of_root (root_vocabsIf h3),
            rootAttr_of_root (root_translateFields (belowRoot_stix101 w) h2)]
          unfold stixUpdateVersions Cls.versionedNodes
          rw [rootAttr_modify (setStixVersion_get? _ _), rootAttr_schemalocs, rootAttr_namespaces,
            cybox201Update_schemaloc h1]
          simp only [locEffect, List.foldl_cons, List.foldl_nil, Cls.locTables, cybox20Cls, cybox201Cls, stix10Cls, stix101Cls, stix11Cls, stix111Cls, stix12Cls, stix10Cybox, stix101Cybox, stix11Cybox]
  | stix11 =>
    change stix11Update w o t = .ok d at h
    simp only [stix11Update] at h
    split at h
    · cases h
    · next t2 h2 =>
      split at h
      · cases h
      · next t3 h3 =>
        rw [rootAttr_of_root (root_optionalsIf h), rootAttr_of_root (root_vocabsIf h3),
          rootAttr_of_root (root_translateFields (belowRoot_stix11 w) h2)]
        unfold stixUpdateVersions Cls.versionedNodes
        rw [rootAttr_modify (setStixVersion_get? _ _), rootAttr_schemalocs, rootAttr_schemalocs]
        simp only [locEffect, List.foldl_cons, List.foldl_nil, Cls.locTables, cybox20Cls, cybox201Cls, stix10Cls, stix101Cls, stix11Cls, stix111Cls, stix12Cls, stix10Cybox, stix101Cybox, stix11Cybox]
  | stix111 =>
    change stix111Update o t = .ok d at h
    simp only [stix111Update] at h
    rw [rootAttr_of_root (root_vocabsIf h)]
    unfold stixUpdateVersions Cls.versionedNodes
    rw [rootAttr_modify (setStixVersion_get? _ _), rootAttr_schemalocs]
    simp only [locEffect, List.foldl_cons, List.foldl_nil, Cls.locTables, cybox20Cls, cybox201Cls, stix10Cls, stix101Cls, stix11Cls, stix111Cls, stix12Cls, stix10Cybox, stix101Cybox, stix11Cybox]
  | stix12 =>
    change stix12Update o t = .ok d at h
    simp only [stix12Update, Except.ok.injEq] at h
    rw [← h, rootAttr_setRootVersion, rootAttr_schemalocs, rootAttr_namespaces]
    simp only [locEffect, List.foldl_cons, List.foldl_nil, Cls.locTables, cybox20Cls, cybox201Cls, stix10Cls, stix101Cls, stix11Cls, stix111Cls, stix12Cls, stix10Cybox, stix101Cybox, stix11Cybox]

theorem wordy_cybox20 : LocTables.Wordy ⟨[], [], Tables.cybox20_schemalocMap⟩ :=
  ⟨List.forall_mem_nil _, by unfold Tables.cybox20_schemalocMap; all_words⟩
theorem wordy_cybox201 : LocTables.Wordy ⟨[], Tables.cybox201_updateNsMap, Tables.cybox201_schemalocMap⟩ :=
  ⟨by unfold Tables.cybox201_updateNsMap; all_words, by unfold Tables.cybox201_schemalocMap; all_words⟩
theorem wordy_stix10 : LocTables.Wordy ⟨Tables.stix10_disallowedNs, [], Tables.stix10_schemalocMap⟩ :=
  ⟨List.forall_mem_nil _, by unfold Tables.stix10_schemalocMap; all_words⟩
theorem wordy_stix101 : LocTables.Wordy ⟨Tables.stix101_disallowedNs, [], Tables.stix101_schemalocMap⟩ :=
  ⟨List.forall_mem_nil _, by unfold Tables.stix101_schemalocMap; all_words⟩
theorem wordy_stix11 : LocTables.Wordy ⟨[], [], Tables.stix11_schemalocMap⟩ :=
  ⟨List.forall_mem_nil _, by unfold Tables.stix11_schemalocMap; all_words⟩
theorem wordy_stix111 : LocTables.Wordy ⟨[], [], Tables.stix111_schemalocMap⟩ :=
  ⟨List.forall_mem_nil _, by unfold Tables.stix111_schemalocMap; all_words⟩
theorem wordy_stix12 : LocTables.Wordy ⟨[], Tables.stix12_updateNsMap, []⟩ :=
  ⟨by unfold Tables.stix12_updateNsMap; all_words, List.forall_mem_nil _⟩

theorem stepTables_wordy {w : World} {u : Updater} {Ts : List LocTables} (hT : StepTables w u Ts) :
    ∀ T ∈ Ts, T.Wordy := by
  cases hT <;> intro T hm <;> simp only [List.mem_cons, List.not_mem_nil, or_false] at hm
  · subst hm; exact wordy_cybox20
  · subst hm; exact wordy_cybox201
  · exact hm.elim (fun e => e ▸ wordy_cybox20) (fun e => e ▸ wordy_stix10)
  · exact hm.elim (fun e => e ▸ wordy_cybox201) (fun e => e ▸ wordy_stix101)
  · exact hm.elim (fun e => e ▸ wordy_cybox201) (fun e => e ▸ wordy_stix11)
  · subst hm; exact wordy_stix111
  · subst hm; exact wordy_stix12

theorem stepTables_registered {w : World} {u : Updater} {Ts : List LocTables} (hT : StepTables w u Ts) :
    Registered w u := by cases hT <;> constructor

theorem locEffect_none (Ts : List LocTables) : locEffect Ts none = none := by
  unfold locEffect
  induction Ts with
  | nil => rfl
  | cons T Ts ih => simpa using ih

theorem locEffect_some : ∀ (Ts : List LocTables) (_ : ∀ T ∈ Ts, T.Wordy) (v : String) (_ : Ts ≠ []),
    locEffect Ts (some v) = some (createSchemalocStr (rewriteAll Ts (getSchemalocPairs v)))
  | [], _, _, h => absurd rfl h
  | [T], _, v, _ => by simp only [locEffect, rewriteAll, List.foldl_cons, List.foldl_nil, Option.map_some]
  | T :: T' :: Ts, h, v, _ => by
    have ih := locEffect_some (T' :: Ts) (fun x hx => h x (by simp [hx]))
      (createSchemalocStr ((getSchemalocPairs v).filterMap T.rewrite)) (by simp)
    have : locEffect (T :: T' :: Ts) (some v) =
      locEffect (T' :: Ts) (some (createSchemalocStr ((getSchemalocPairs v).filterMap T.rewrite))) := by
      simp only [locEffect, List.foldl_cons, Option.map_some]
    rw [this, ih, read_create]
    · simp only [rewriteAll, List.foldl_cons]
    · exact rewrite_words (h T (by simp)) (fun p hp => pairs_isWord hp)

theorem rewriteAll_words : ∀ (Ts : List LocTables) (_ : ∀ T ∈ Ts, T.Wordy) (ps : List (String × String)),
    (∀ p ∈ ps, IsWord p.1 ∧ IsWord p.2) → ∀ p ∈ rewriteAll Ts ps, IsWord p.1 ∧ IsWord p.2
  | [], _, ps, h => h
  | T :: Ts, hT, ps, h =>
    rewriteAll_words Ts (fun x hx => hT x (by simp [hx])) _ (rewrite_words (hT T (by simp)) h)

/-! ## C17 -/

/-- C17: after a step (forced or not), a root without `xsi:schemaLocation` still has none; a root whose
attribute lists the pairs `ps` (whatever the white space, with or without an odd last word) has one
listing exactly the rewritten pairs, in order. -/
theorem C17_schemaLocation_exact (w : World) (u : Updater) (Ts : List LocTables) (hT : StepTables w u Ts)
    (o : Options) (force : Bool) (k : Nat) (t : Node) (r : Result) (k' : Nat)
    (h : stepUpdate u o force k t = .ok (r, k')) :
    (rootAttr t ⟨some "http://www.w3.org/2001/XMLSchema-instance", "schemaLocation"⟩ = none →
      rootAttr r.doc ⟨some "http://www.w3.org/2001/XMLSchema-instance", "schemaLocation"⟩ = none) ∧
    (∀ v ps, rootAttr t ⟨some "http://www.w3.org/2001/XMLSchema-instance", "schemaLocation"⟩ = some v →
      ListsPairs v ps →
      ∃ v', rootAttr r.doc ⟨some "http://www.w3.org/2001/XMLSchema-instance", "schemaLocation"⟩ = some v' ∧
        Words v'.toList (flatPairs (rewriteAll Ts ps))) := by
  obtain ⟨t1, hr, hu⟩ := step_update (stepTables_registered hT) h
  have he := update_schemaloc hT hu
  rw [rootAttr_of_root hr] at he
  change (rootAttr t tagSchemaLoc = none → rootAttr r.doc tagSchemaLoc = none) ∧
    (∀ v ps, rootAttr t tagSchemaLoc = some v → ListsPairs v ps →
      ∃ v', rootAttr r.doc tagSchemaLoc = some v' ∧ Words v'.toList (flatPairs (rewriteAll Ts ps)))
  constructor
  · intro h0; rw [he, h0, locEffect_none]
  · intro v ps hv hps
    have hw := stepTables_wordy hT
    have hne : Ts ≠ [] := by cases hT <;> simp
    refine ⟨_, by rw [he, hv, locEffect_some Ts hw v hne], ?_⟩
    have hps' := (listsPairs_iff v ps).1 hps
    rw [hps']
    have := words_create (ps := rewriteAll Ts ps)
      (rewriteAll_words Ts hw ps (fun p hp => pairs_isWord (hps' ▸ hp)))
    rw [← this]
    exact words_pySplitWs _

/-- A forced 1.0 step: the MAEC pair vanishes, the STIX pair gets its new location, the foreign pair
stays. -/
def docLoc : Node :=
  stixDoc "1.0" [] [(tagSchemaLoc, " http://stix.mitre.org/stix-1\tx.xsd urn:a a.xsd\n http://stix.mitre.org/extensions/Malware#MAEC4.0-1 m.xsd odd")]

example : ListsPairs " http://stix.mitre.org/stix-1\tx.xsd urn:a a.xsd\n http://stix.mitre.org/extensions/Malware#MAEC4.0-1 m.xsd odd"
      [("http://stix.mitre.org/stix-1", "x.xsd"), ("urn:a", "a.xsd"),
       ("http://stix.mitre.org/extensions/Malware#MAEC4.0-1", "m.xsd")] ∧
    (stepUpdate stix10 o0 false 0 docLoc).isOk = true ∧
    rewriteAll [⟨[], [], Tables.cybox20_schemalocMap⟩, ⟨Tables.stix10_disallowedNs, [], Tables.stix10_schemalocMap⟩]
      [("http://stix.mitre.org/stix-1", "x.xsd"), ("urn:a", "a.xsd"),
       ("http://stix.mitre.org/extensions/Malware#MAEC4.0-1", "m.xsd")] =
      [("http://stix.mitre.org/stix-1", "http://stix.mitre.org/XMLSchema/core/1.0.1/stix_core.xsd"),
       ("urn:a", "a.xsd")] := by
  refine ⟨(listsPairs_iff _ _).2 (by decide +kernel), by decide +kernel, by decide +kernel⟩

/-! ## C18 -/

/-- C18, round trip: the printed form of a list of pairs reads back as those pairs, for every list of
pairs of non-empty names and locations without white space. -/
theorem C18_print_read (ps : List (String × String)) (h : ∀ p ∈ ps, IsWord p.1 ∧ IsWord p.2) :
    getSchemalocPairs (createSchemalocStr ps) = ps ∧ ListsPairs (createSchemalocStr ps) ps :=
  ⟨read_create h, (listsPairs_iff _ _).2 (read_create h)⟩

example : getSchemalocPairs (createSchemalocStr [("urn:a", "a.xsd"), ("urn:b", "b.xsd")]) =
    [("urn:a", "a.xsd"), ("urn:b", "b.xsd")] := (C18_print_read _ (by
    simp only [List.forall_mem_cons]
    exact ⟨⟨isWord_ofList (by decide +kernel), isWord_ofList (by decide +kernel)⟩,
      ⟨isWord_ofList (by decide +kernel), isWord_ofList (by decide +kernel)⟩, List.forall_mem_nil _⟩)).1

/-- Rewriting with a table a second time changes nothing, pair by pair. -/
def LocTables.Stable (T : LocTables) : Prop := ∀ p ∈ T.renamed, assoc T.renamed p.2 = none ∧ p.2 ∉ T.dropped

instance (T : LocTables) : Decidable T.Stable := by unfold LocTables.Stable; infer_instance

theorem rewrite_rewrite {T : LocTables} (hT : T.Stable) {p q : String × String} (h : T.rewrite p = some q) :
    T.rewrite q = some q := by
  unfold LocTables.rewrite at h
  split at h
  · cases h
  · next hd =>
    simp only [Option.some.injEq] at h
    subst h
    cases hn : assoc T.renamed p.1 with
    | none =>
      cases hl : assoc T.locations p.1 with
      | none => simp [LocTables.rewrite, hd, hn, hl]
      | some l => simp [LocTables.rewrite, hd, hn, hl]
    | some n =>
      obtain ⟨h1, h2⟩ := hT _ (assoc_mem hn)
      simp only at h1 h2
      cases hl : assoc T.locations n with
      | none => simp [LocTables.rewrite, h1, h2, hl]
      | some l => simp [LocTables.rewrite, h1, h2, hl]

theorem filterMap_rewrite {T : LocTables} (hT : T.Stable) (ps : List (String × String)) :
    (ps.filterMap T.rewrite).filterMap T.rewrite = ps.filterMap T.rewrite := by
  induction ps with
  | nil => rfl
  | cons p ps ih =>
    cases h : T.rewrite p with
    | none => rw [List.filterMap_cons_none h]; exact ih
    | some q => rw [List.filterMap_cons_some h, List.filterMap_cons_some (rewrite_rewrite hT h), ih]

/-- The updater classes whose `_update_schemalocs` runs in some step, stand-alone or embedded. -/
inductive LocClass (w : World) : Cls → Prop
  | cybox20 (n s) : LocClass w (cybox20Cls n s)
  | cybox201 (n s) : LocClass w (cybox201Cls n s)
  | stix10 : LocClass w stix10Cls
  | stix101 : LocClass w (stix101Cls w)
  | stix11 : LocClass w (stix11Cls w)
  | stix111 : LocClass w stix111Cls
  | stix12 : LocClass w stix12Cls

theorem stable_cybox201 : LocTables.Stable ⟨[], Tables.cybox201_updateNsMap, Tables.cybox201_schemalocMap⟩ := by
  decide +kernel
theorem stable_stix12 : LocTables.Stable ⟨[], Tables.stix12_updateNsMap, []⟩ := by decide +kernel
theorem stable_none (d : List String) (l : List (String × String)) : LocTables.Stable ⟨d, [], l⟩ := by
  intro p hp; cases hp

theorem locClass_ok {w : World} {u : Cls} (h : LocClass w u) : u.locTables.Wordy ∧ u.locTables.Stable := by
  cases h
  · exact ⟨wordy_cybox20, stable_none _ _⟩
  · exact ⟨wordy_cybox201, stable_cybox201⟩
  · exact ⟨wordy_stix10, stable_none _ _⟩
  · exact ⟨wordy_stix101, stable_none _ _⟩
  · exact ⟨wordy_stix11, stable_none _ _⟩
  · exact ⟨wordy_stix111, stable_none _ _⟩
  · exact ⟨wordy_stix12, stable_stix12⟩

theorem Attrs.set_set (as : Attrs) (k : QName) (v v' : String) :
    Attrs.set (Attrs.set as k v) k v' = Attrs.set as k v' := by
  induction as with
  | nil => simp [Attrs.set]
  | cons x xs ih =>
    obtain ⟨k1, v1⟩ := x
    by_cases h : k1 = k <;> simp [Attrs.set, h, ih]

/-- C18, stability: for every step's tables, rewriting a document's schemaLocation twice gives the same
document as rewriting it once. -/
theorem C18_rewrite_twice (w : World) (u : Cls) (hu : LocClass w u) (t : Node) :
    u.updateSchemalocs (u.updateSchemalocs t) = u.updateSchemalocs t := by
  cases t with
  | other _ _ => rfl
  | elem e ks =>
    simp only [Cls.updateSchemalocs]
    congr 1
    obtain ⟨hw, hs⟩ := locClass_ok hu
    cases h : e.get? tagSchemaLoc with
    | none => simp only [Cls.updateSchemalocsElem, h]
    | some v =>
      have h1 : u.updateSchemalocsElem e =
          e.set tagSchemaLoc (createSchemalocStr ((getSchemalocPairs v).filterMap u.locTables.rewrite)) := by
        simp only [Cls.updateSchemalocsElem, h, remap_clean]
      rw [h1]
      unfold Cls.updateSchemalocsElem
      rw [Elem.get?_set, if_pos rfl]
      simp only
      rw [remap_clean, read_create (rewrite_words hw (fun p hp => pairs_isWord hp)), filterMap_rewrite hs]
      simp only [Elem.set, Attrs.set_set]

example : (stix12Cls.updateSchemalocs (stixDoc "1.2" []
      [(tagSchemaLoc, "http://stix.mitre.org/stix-1 x.xsd")])).root?.bind (·.get? tagSchemaLoc) =
    some "http://docs.oasis-open.org/cti/ns/stix/core-1 x.xsd" := by decide +kernel

end Ramrod
