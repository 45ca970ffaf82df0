import Verif.Props.Total
/-!
# C09, C45: version checks along the chain
-/

namespace Ramrod
open Samples

/-! ## Helpers -/

theorem sel_abs {m : List (String × String)} {alts : List XAlt}
    (h : (alts.all fun a => a.abs && decide (a.parent = none) && decide (a.pred = .none)) = true) {c : Ctx} :
    alts.any (fun a => a.selects m c) = true ↔ c.e.tag ∈ alts.map (fun a => a.tag.resolve m) := by
  simp only [List.any_eq_true, List.mem_map]
  refine exists_congr fun a => and_congr_right fun ha => ?_
  have h1 := List.all_eq_true.1 h a ha
  simp only [Bool.and_eq_true, decide_eq_true_eq] at h1
  obtain ⟨⟨h1, h2⟩, h3⟩ := h1
  simp only [XAlt.selects, h1, h2, h3, XPred.holds, Bool.true_or, Bool.and_true, decide_eq_true_eq]
  exact eq_comm

theorem sel_rel {m : List (String × String)} {alts : List XAlt}
    (h : (alts.all fun a => !a.abs && decide (a.parent = none) && decide (a.pred = .none)) = true) {c : Ctx} :
    alts.any (fun a => a.selects m c) = true ↔ c.anc ≠ [] ∧ c.e.tag ∈ alts.map (fun a => a.tag.resolve m) := by
  have hl : 1 ≤ c.anc.length ↔ c.anc ≠ [] := by
    cases c.anc <;> simp
  simp only [List.any_eq_true, List.mem_map]
  constructor
  · rintro ⟨a, ha, hs⟩
    have h1 := List.all_eq_true.1 h a ha
    simp only [Bool.and_eq_true, decide_eq_true_eq, Bool.not_eq_true'] at h1
    obtain ⟨⟨h1, h2⟩, h3⟩ := h1
    simp only [XAlt.selects, h1, h2, h3, XPred.holds, Bool.false_or, Bool.and_true, Bool.and_eq_true, decide_eq_true_eq, hl] at hs
    exact ⟨hs.2, a, ha, hs.1.symm⟩
  · rintro ⟨hne, a, ha, hs⟩
    have h1 := List.all_eq_true.1 h a ha
    simp only [Bool.and_eq_true, decide_eq_true_eq, Bool.not_eq_true'] at h1
    obtain ⟨⟨h1, h2⟩, h3⟩ := h1
    refine ⟨a, ha, ?_⟩
    simp only [XAlt.selects, h1, h2, h3, XPred.holds, Bool.false_or, Bool.and_true, Bool.and_eq_true, decide_eq_true_eq, hl]
    exact ⟨hs.symm, hne⟩

/-- No version in the document is malformed. -/
def WellVersioned (t : Node) : Prop := ∀ c ∈ t.elems,
  (∀ x, ReadsCybox c.e x → ¬ Malformed x) ∧ (∀ x, ReadsStix c.e x → ¬ Malformed x)

/-- The two outcomes of the CybOX version check. -/
theorem cyboxCheck_cases {u : Cls} {v : String} (hu : u.version = v) (hv : ¬ Malformed v) {t : Node} {Sel : Ctx → Prop}
    (hsel : ∀ c, u.xpathRoots.any (fun a => a.selects u.nsmap c) = true ↔ Sel c) (hw : WellVersioned t) :
    (cyboxCheckVersion u t = .ok () ∧ ∀ c ∈ t.elems, Sel c → RightCybox v c.e) ∨
    (∃ x, VersionRefusal x ∧ cyboxCheckVersion u t = .error x ∧ ∃ c ∈ t.elems, Sel c ∧ ¬ RightCybox v c.e) := by
  cases h : cyboxCheckVersion u t with
  | ok _ =>
    left
    refine ⟨rfl, fun c hc hs => ?_⟩
    exact hu ▸ checkRoots_ok.1 h c (List.mem_filter.2 ⟨hc, (hsel c).2 hs⟩)
  | error x =>
    right
    rcases checkRoots_error h with ⟨hx, c, hc, hn⟩ | ⟨_, hm | ⟨d, hd, y, hy, hm⟩⟩
    · obtain ⟨h1, h2⟩ := List.mem_filter.1 hc
      exact ⟨x, hx, rfl, c, h1, (hsel c).1 h2, hu ▸ hn⟩
    · exact absurd (hu ▸ hm) hv
    · exact absurd hm ((hw d (List.mem_filter.1 hd).1).1 y hy)

/-- The two outcomes of the STIX version check. -/
theorem stixCheck_cases {u : Cls} (hm : assoc u.nsmap "stix" = some "http://stix.mitre.org/stix-1")
    (hr : u.xpathRoots = xpathStixRoots) {v : String} (hu : u.version = v) (hv : ¬ Malformed v) {t : Node} (hw : WellVersioned t) :
    (stixCheckVersion u t = .ok () ∧ StixVersion v t) ∨
    (∃ x, VersionRefusal x ∧ stixCheckVersion u t = .error x ∧ ¬ StixVersion v t) := by
  subst hu
  by_cases hp : StixVersion u.version t
  · exact Or.inl ⟨stixCheck_pass hm hr hp, hp⟩
  · have hp' := hp
    simp only [StixVersion, Classical.not_forall] at hp
    obtain ⟨c, hf, hn⟩ := hp
    obtain ⟨x, h1, h2⟩ := (stixCheck_first hm hr hf (hw c (List.mem_of_find?_eq_some hf)).2 hv).2 hn
    exact Or.inr ⟨x, h1, h2, hp'⟩

theorem not_refusal_update {l : Option (List Ctx)} {g : Option Dups} : ¬ VersionRefusal (.update l g) := by
  rintro (h | ⟨_, _, _, h⟩) <;> cases h

theorem refused_not {b : Bool} {l : Option (List Ctx)} {g : Option Dups} {x : Err} (hx : VersionRefusal x)
    (h : (if b = true then (.ok () : Except Err Unit) else .error (.update l g)) = .error x) : False := by
  cases b <;> cases h
  exact not_refusal_update hx

theorem not_refusal_of {α : Type} {y : Except Err α} (hy : NoRefuse y) {x : Err} (hx : VersionRefusal x) : y ≠ .error x := by
  intro h
  have := hy x h
  rw [refusal_refusable hx] at this
  cases this

/-- The check of a step refuses the version exactly if it is not the right one. -/
theorem check_versions {w : World} {u : Updater} {rules : List Rule} {nss : Option (List String)} {ty : Bool}
    {V : Node → Prop} (hu : StepRules w u rules nss ty V) {o : Options} (ho : o.checkVersions = true) {t : Node}
    (hw : WellVersioned t) : (∃ x, VersionRefusal x ∧ u.check o t = .error x) ↔ ¬ V t := by
  have two : ∀ {y : Except Err Unit} {P : Prop}, (y = .ok () ∧ P) ∨ (∃ x, VersionRefusal x ∧ y = .error x ∧ ¬ P) →
      ((∃ x, VersionRefusal x ∧ y = .error x) ↔ ¬ P) := by
    rintro y P (⟨h1, h2⟩ | ⟨x, h1, h2, h3⟩)
    · rw [h1]
      constructor
      · rintro ⟨x, _, h⟩; cases h
      · intro h; exact absurd h2 h
    · exact ⟨fun _ => h3, fun _ => ⟨x, h1, h2⟩⟩
  have cy : ∀ {y : Except Err Unit} {Sel : Ctx → Prop} {v : String},
      (y = .ok () ∧ ∀ c ∈ t.elems, Sel c → RightCybox v c.e) ∨
        (∃ x, VersionRefusal x ∧ y = .error x ∧ ∃ c ∈ t.elems, Sel c ∧ ¬ RightCybox v c.e) →
      (y = .ok () ∧ ∀ c ∈ t.elems, Sel c → RightCybox v c.e) ∨
        (∃ x, VersionRefusal x ∧ y = .error x ∧ ¬ ∀ c ∈ t.elems, Sel c → RightCybox v c.e) := by
    rintro y Sel v (h | ⟨x, h1, h2, c, hc, h3, h4⟩)
    · exact Or.inl h
    · exact Or.inr ⟨x, h1, h2, fun h => h4 (h c hc h3)⟩
  cases hu with
  | cybox20 =>
    simp only [cybox20, cybox20Check, ho, if_true]
    exact two (cy (cyboxCheck_cases (u := cybox20Cls Tables.cybox20_nsmap xpathObservables) rfl (wf_of (by decide))
      (Sel := fun c => c.e.tag = ⟨some "http://cybox.mitre.org/cybox-2", "Observables"⟩)
      (fun c => (sel_abs (by decide)).trans (by
        rw [show (cybox20Cls Tables.cybox20_nsmap xpathObservables).xpathRoots.map (fun a => a.tag.resolve
          (cybox20Cls Tables.cybox20_nsmap xpathObservables).nsmap) = [⟨some "http://cybox.mitre.org/cybox-2", "Observables"⟩]
          by decide +kernel]; simp)) hw))
  | cybox201 =>
    have h := two (cy (cyboxCheck_cases (u := cybox201Cls Tables.cybox201_nsmap xpathObservables) rfl (wf_of (v := "2.0.1") (by decide))
      (Sel := fun c => c.e.tag = ⟨some "http://cybox.mitre.org/cybox-2", "Observables"⟩)
      (fun c => (sel_abs (by decide)).trans (by
        rw [show (cybox201Cls Tables.cybox201_nsmap xpathObservables).xpathRoots.map (fun a => a.tag.resolve
          (cybox201Cls Tables.cybox201_nsmap xpathObservables).nsmap) = [⟨some "http://cybox.mitre.org/cybox-2", "Observables"⟩]
          by decide +kernel]; simp)) hw))
    refine Iff.trans ?_ h
    refine exists_congr fun x => and_congr_right fun hx => ?_
    simp only [cybox201, cybox201Check, ho, if_true]
    cases cyboxCheckVersion (cybox201Cls Tables.cybox201_nsmap xpathObservables) t with
    | error y => exact Iff.rfl
    | ok _ =>
      simp only [reduceCtorEq, iff_false]
      intro h
      split at h
      · next y hy => cases h; exact not_refusal_of (noRefuse_findAll _ _) hx hy
      · exact refused_not hx h
  | stix10 =>
    have h1 := stixCheck_cases (u := stix10Cls) (by decide +kernel) rfl (v := "1.0") rfl (wf_of (by decide)) hw
    have h2 := cy (cyboxCheck_cases (u := stix10Cybox) (v := "2.0") rfl (wf_of (by decide)) (Sel := fun c => c.e.tag ∈ embedded10)
      (fun c => (sel_abs (by decide +kernel)).trans (by
        rw [show stix10Cybox.xpathRoots.map (fun a => a.tag.resolve stix10Cybox.nsmap) = embedded10 by decide +kernel])) hw)
    simp only [stix10, stix10Check, ho, if_true]
    rcases h1 with ⟨e1, p1⟩ | ⟨x, hx, e1, p1⟩
    · rcases h2 with ⟨e2, p2⟩ | ⟨x, hx, e2, p2⟩
      · simp only [e1, e2]
        refine ⟨?_, fun h => absurd ⟨p1, p2⟩ h⟩
        rintro ⟨x, hx, h⟩
        split at h
        · next y hy => cases h; exact absurd hy (not_refusal_of (noRefuse_findAll _ _) hx)
        · exact (refused_not hx h).elim
      · simp only [e1, e2]
        exact ⟨fun _ h => p2 h.2, fun _ => ⟨x, hx, rfl⟩⟩
    · simp only [e1]
      exact ⟨fun _ h => p1 h.1, fun _ => ⟨x, hx, rfl⟩⟩
  | stix101 =>
    have h1 := stixCheck_cases (u := stix101Cls w) (show assoc Tables.stix101_nsmap "stix" = _ by decide +kernel) rfl
      (v := "1.0.1") rfl (wf_of (by decide)) hw
    have h2 := cy (cyboxCheck_cases (u := stix101Cybox) (v := "2.0.1") rfl (wf_of (by decide))
      (Sel := fun c => c.anc ≠ [] ∧ c.e.tag ∈ embedded101)
      (fun c => (sel_rel (by decide +kernel)).trans (by
        rw [show stix101Cybox.xpathRoots.map (fun a => a.tag.resolve stix101Cybox.nsmap) = embedded101 by decide +kernel])) hw)
    simp only [stix101, stix101Check, ho, if_true]
    rcases h1 with ⟨e1, p1⟩ | ⟨x, hx, e1, p1⟩
    · rcases h2 with ⟨e2, p2⟩ | ⟨x, hx, e2, p2⟩
      · simp only [e1, e2]
        refine ⟨?_, fun h => absurd ⟨p1, fun c hc ha ht => p2 c hc ⟨ha, ht⟩⟩ h⟩
        rintro ⟨x, hx, h⟩
        split at h
        · next y hy =>
          cases h
          unfold stix101GetDisallowed at hy
          split at hy
          · next z hz => cases hy; exact absurd hz (not_refusal_of (noRefuse_findAll _ _) hx)
          · split at hy
            · next z hz => cases hy; exact absurd hz (not_refusal_of (noRefuse_findAll _ _) hx)
            · cases hy
        · exact (refused_not hx h).elim
      · simp only [e1, e2]
        exact ⟨fun _ h => p2 (fun c hc hs => h.2 c hc hs.1 hs.2), fun _ => ⟨x, hx, rfl⟩⟩
    · simp only [e1]
      exact ⟨fun _ h => p1 h.1, fun _ => ⟨x, hx, rfl⟩⟩
  | stix11 =>
    simp only [stix11, stix11Check, ho, if_true]
    exact two (stixCheck_cases (u := stix11Cls w) (show assoc Tables.stix11_nsmap "stix" = _ by decide +kernel) rfl
      (v := "1.1") rfl (wf_of (by decide)) hw)
  | stix111 =>
    simp only [stix111, stix111Check, ho, if_true]
    exact two (stixCheck_cases (u := stix111Cls) (by decide +kernel) rfl (v := "1.1.1") rfl (wf_of (by decide)) hw)
  | stix12 =>
    simp only [stix12, stix12Check, ho, if_true]
    exact two (stixCheck_cases (u := stix12Cls) (by decide +kernel) rfl (v := "1.2") rfl (wf_of (by decide)) hw)

/-! ## C09 -/

/-- C09 for all seven steps, embedded CybOX content included: when no version in the document is malformed, the unforced step
refuses the version exactly if it is not the right one: for CybOX that of every `cybox:Observables`; for STIX that of the first
package and, in the steps from 1.0 and 1.0.1, that of every element with embedded CybOX content.
Partial: of several STIX packages only the first is looked at. -/
theorem C09_steps_partial (w : World) (u : Updater) (rules : List Rule) (nss : Option (List String)) (ty : Bool)
    (V : Node → Prop) (hu : StepRules w u rules nss ty V) (o : Options) (ho : o.checkVersions = true) (k : Nat) (t : Node)
    (hw : WellVersioned t) :
    (∃ x, stepUpdate u o false k t = .error x ∧ VersionRefusal x) ↔ ¬ V t := by
  rw [← check_versions hu ho hw]
  refine exists_congr fun x => ?_
  rw [and_comm]
  exact and_congr_right fun hx => step_refusal (stepRules_registered hu) hx

/-- A 1.0 package whose observables are of CybOX 2.0.1: no version is malformed and the versions are wrong. -/
def docLateCybox : Node := stixDoc "1.0" [.elem ⟨⟨some nsStix, "Observables"⟩, [], v201, none, none⟩ []]

theorem wellVersioned_of {t : Node} (h : (t.elems.all fun c =>
    (match (cyboxGetVersion c.e : Except Err String) with | .ok x => (parseVer x).isSome | .error _ => true) &&
    (match stixGetVersion c.e with | some x => (parseVer x).isSome | none => true)) = true) : WellVersioned t := by
  intro c hc
  have := List.all_eq_true.1 h c hc
  simp only [Bool.and_eq_true] at this
  refine ⟨fun x hx hm => ?_, fun x hx hm => ?_⟩
  · rw [getVersion_iff.2 hx] at this
    obtain ⟨a, ha⟩ := Option.isSome_iff_exists.1 this.1
    exact hm ⟨a, (parseVer_iff x a).1 ha⟩
  · have h1 : stixGetVersion c.e = some x := hx.1
    rw [h1] at this
    obtain ⟨a, ha⟩ := Option.isSome_iff_exists.1 this.2
    exact hm ⟨a, (parseVer_iff x a).1 ha⟩

example : WellVersioned docLateCybox ∧
    stepUpdate stix10 o0 false 0 docLateCybox = .error (.invalidVersion (docLateCybox.ctxAt [0]) (some "2.0") (some "2.0.1")) :=
  ⟨wellVersioned_of (by decide +kernel), by decide +kernel⟩

/-! ## C45: specification -/

/-- The versions a STIX document of release `v` must say for the step from `v` to accept it. -/
def AcceptedStix (v : String) (t : Node) : Prop :=
  StixVersion v t ∧
  (v = "1.0" → ∀ c ∈ t.elems, c.e.tag ∈ embedded10 → RightCybox "2.0" c.e) ∧
  (v = "1.0.1" → ∀ c ∈ t.elems, c.anc ≠ [] → c.e.tag ∈ embedded101 → RightCybox "2.0.1" c.e)

/-- The two places with CybOX content that the 1.0 step does not know and the 1.0.1 step does. -/
def lateHolders : List QName :=
  [⟨some "http://stix.mitre.org/TTP-1", "Targeted_Technical_Details"⟩,
    ⟨some "http://stix.mitre.org/CourseOfAction-1", "Parameter_Observables"⟩]

/-- The release after `v`. -/
def Successor (releases : List String) (v v' : String) : Prop :=
  ∃ i : Nat, releases[i]? = some v ∧ releases[i + 1]? = some v'

/-- The same options with the version checks off. -/
def unchecked (o : Options) : Options := { o with checkVersions := false }

/-! ## C45: helpers -/

theorem rightCybox_congr {e e' : Elem} {v : String}
    (h : ∀ k : QName, k ≠ tagXsiType → k ≠ attrVocabReference → k ≠ attrVocabName → k ≠ tagSchemaLoc → k ≠ attrVersion →
      e'.get? k = e.get? k) (hs : RightCybox v e) : RightCybox v e' := by
  unfold RightCybox ReadsCybox at hs ⊢
  rw [h _ (by decide) (by decide) (by decide) (by decide) (by decide),
    h _ (by decide) (by decide) (by decide) (by decide) (by decide),
    h _ (by decide) (by decide) (by decide) (by decide) (by decide)]
  exact hs

/-- Every element with one of the names `tags` has CybOX version `v`. -/
def CyboxAt (tags : List QName) (v : String) (e : Elem) : Prop := e.tag ∈ tags → RightCybox v e

theorem cyboxAt_congr {tags : List QName} {v : String} {e e' : Elem} (ht : e'.tag = e.tag)
    (h : ∀ k : QName, k ≠ tagXsiType → k ≠ attrVocabReference → k ≠ attrVocabName → k ≠ tagSchemaLoc → k ≠ attrVersion →
      e'.get? k = e.get? k) (hs : CyboxAt tags v e) : CyboxAt tags v e' :=
  fun hm => rightCybox_congr h (hs (ht ▸ hm))

theorem cyboxAt_vocab {tags : List QName} {v : String} {vs : List Vocab} : ∀ vo ∈ vs, ∀ e e', CyboxAt tags v e →
    vo.updateNode e = .ok e' → CyboxAt tags v e' := fun _ _ _ _ h he =>
  cyboxAt_congr (updateNode_keeps he).1 (fun _ h1 h2 h3 _ _ => updateNode_get? he h1 h2 h3) h

theorem cyboxAt_schemaloc {tags : List QName} {v : String} {u : Cls} {t : Node} (h : t.All (CyboxAt tags v)) :
    (u.updateSchemalocs t).All (CyboxAt tags v) := by
  rw [updateSchemalocs_eq]
  refine all_edit h (fun c _ hc => ?_)
  unfold schemalocEdit
  split
  · exact cyboxAt_congr (updateSchemalocsElem_tag u _) (fun k _ _ _ h _ => updateSchemalocsElem_get? u _ h) hc
  · exact hc

theorem cyboxAt_version {tags : List QName} {v i x : String} {m : List (String × String)} {alts : List XAlt} {t : Node}
    (h : t.All (CyboxAt tags v)) : (t.edit (versionEdit m alts (setStixVersion i x))).All (CyboxAt tags v) := by
  refine all_edit h (fun c _ hc => ?_)
  unfold versionEdit
  split
  · refine cyboxAt_congr ?_ (fun k _ _ _ _ h => ?_) hc
    · unfold setStixVersion; exact Elem.set_tag _ _ _
    · unfold setStixVersion; rw [Elem.get?_set, if_neg (Ne.symm h)]
  · exact hc

theorem cyboxAt_lists {tags : List QName} {v : String} {m : List (String × String)} {t : Node}
    (h : t.All (CyboxAt tags v)) : (t.edit (listsEdit m)).All (CyboxAt tags v) := by
  refine all_edit h (fun c _ hc => ?_)
  have hk := keeps_lists m c
  have ha := iter_lists_keeps (propsDepth ((⟨"cybox", "Object"⟩ : XName).resolve m)
    ((⟨"cybox", "Properties"⟩ : XName).resolve m) c.anc) c.e
  refine cyboxAt_congr hk.1 (fun k _ _ _ _ _ => ?_) hc
  unfold Elem.get?
  exact congrArg (fun as => Attrs.get? as k) ha.2.2.1

theorem says_right {e : Elem} {v : String} (hv : ¬ Malformed v) (h : SaysCybox e v) : RightCybox v e := by
  obtain ⟨a, b, h1, h2, h3, h4, h5⟩ := h
  obtain ⟨n, hn⟩ := Classical.not_not.1 hv
  refine ⟨v, n, ⟨a, b, h1, h2, h3, h4, ?_⟩, hn, hn⟩
  rcases h5 with ⟨h5, h6⟩ | ⟨c, hc, h5, h6⟩
  · exact Or.inl ⟨Or.inl h5, h6⟩
  · exact Or.inr ⟨c, hc, h5, h6⟩

theorem stix10_embedded {o : Options} {t d : Node} (h : stix10Update o t = .ok d) (ht : t.All (CyboxAt lateHolders "2.0.1")) :
    d.All (CyboxAt embedded101 "2.0.1") := by
  simp only [stix10Update] at h
  split at h
  · cases h
  · next t1 h1 =>
    rw [updateNamespaces_nil (u := stix10Cls) rfl, stixVersions_eq] at h
    refine all_vocabsIf (cyboxAt_version (cyboxAt_schemaloc ?_)) h cyboxAt_vocab
    simp only [cybox20Update] at h1
    rw [cybox20Versions_eq, updateLists_eq] at h1
    refine all_vocabsIf (cyboxAt_lists (all_edit (cyboxAt_schemaloc ht) (fun c _ hc => ?_))) h1 cyboxAt_vocab
    unfold versionEdit
    split
    · exact fun _ => says_right (wf_of (by decide)) (saysCybox_201 _)
    · next hs =>
      intro hm
      rcases List.mem_append.1 (show c.e.tag ∈ embedded10 ++ lateHolders from hm) with hm | hm
      · refine absurd ((sel_abs (by decide +kernel)).2 ?_) hs
        rw [show stix10Cybox.xpathVersioned.map (fun a => a.tag.resolve stix10Cybox.nsmap) = embedded10 by decide +kernel]
        exact hm
      · exact hc hm

theorem firstPackage_root {t : Node} {e : Elem} (he : t.root? = some e) (hq : e.tag = packageTag) {c : Ctx}
    (h : FirstPackage t c) : c.e = e := by
  obtain ⟨ks, rfl⟩ := root_some he
  simp only [FirstPackage, Node.elems, Node.walk, List.find?_cons] at h
  rw [show decide (e.tag = ⟨some "http://stix.mitre.org/stix-1", "STIX_Package"⟩) = true from decide_eq_true hq] at h
  cases h
  rfl

theorem stixVersion_root {t : Node} {e : Elem} {v : String} (hv : ¬ Malformed v) (hv0 : v ≠ "") (he : t.root? = some e)
    (hq : e.tag = packageTag) (h : e.get? (.plain "version") = some v) : StixVersion v t := by
  intro c hc
  rw [firstPackage_root he hq hc]
  obtain ⟨n, hn⟩ := Classical.not_not.1 hv
  exact ⟨v, n, ⟨h, hv0⟩, hn, hn⟩

theorem all_cutOf {P : Elem → Prop} {dis : Option (List Ctx)} {t : Node} (h : t.All P) : (cutOf dis t).1.All P := by
  unfold cutOf
  split
  · exact h
  · split
    · exact h
    · exact all_removeAll h _

/-- The document the update of a step works on, when nothing gets new ids. -/
theorem step_update_all {u : Updater} (hd : ∀ t, u.duplicates t = none) {o : Options} {force : Bool} {k k' : Nat}
    {t : Node} {r : Result} (hs : stepUpdate u o force k t = .ok (r, k')) {P : Elem → Prop} (ht : t.All P) :
    ∃ t1, t1.All P ∧ u.update o t1 = .ok r.doc := by
  simp only [stepUpdate] at hs
  split at hs
  · next d hd' =>
    cases hs
    simp only [tryUpdate] at hd'
    split at hd'
    · cases hd'
    · exact ⟨t, ht, hd'⟩
  · split at hs
    · simp only [forceUpdate] at hs
      split at hs
      · cases hs
      · next r1 k1 hc =>
        split at hs
        · cases hs
        · next d hu =>
          cases hs
          refine ⟨r1.doc, ?_, hu⟩
          obtain ⟨dis, _, h | ⟨g, hg, _⟩⟩ := clean_cut hc
          · rw [h.2.2]; exact all_cutOf ht
          · rw [hd t] at hg; cases hg
    · cases hs

/-- What a chain keeps: a package at the root, versions the next step accepts. -/
def ChainReady (v : String) (t : Node) : Prop :=
  RootTag packageTag t ∧ AcceptedStix v t ∧ (v = "1.0" → t.All (CyboxAt lateHolders "2.0.1"))

theorem chainReady_next {w : World} {v : String} {u : Updater} (hu : assoc (stixUpdaters w) v = some u) (hv : v ≠ "1.2")
    {o : Options} {force : Bool} {k k' : Nat} {t : Node} {r : Result} (ht : RootTag packageTag t)
    (hl : v = "1.0" → t.All (CyboxAt lateHolders "2.0.1"))
    (h : stepUpdate u o force k t = .ok (r, k')) : ChainReady (stixNext v) r.doc := by
  have hm := assoc_mem hu
  have hr : Registered w u := registered_stix hu
  obtain ⟨t1, ht1, hup⟩ := step_update hr h
  obtain ⟨e, he, hev, _, hq⟩ := stix_update_root hu hup (ht.of_eq ht1)
  refine ⟨⟨e, he, hq hv⟩, ?_⟩
  simp only [stixUpdaters, List.mem_cons, Prod.mk.injEq, List.not_mem_nil, or_false] at hm
  rcases hm with ⟨rfl, rfl⟩ | ⟨rfl, rfl⟩ | ⟨rfl, rfl⟩ | ⟨rfl, rfl⟩ | ⟨rfl, rfl⟩
  · refine ⟨⟨stixVersion_root (wf_of (by decide)) (by decide) he (hq hv) hev, fun h => absurd h (by decide), fun _ => ?_⟩,
      fun h => absurd h (by decide)⟩
    obtain ⟨t2, h2, hup2⟩ := step_update_all (fun _ => rfl) h (hl rfl)
    intro c hc _ hm
    exact all_elems.1 (stix10_embedded hup2 h2) c hc hm
  · exact ⟨⟨stixVersion_root (wf_of (by decide)) (by decide) he (hq hv) hev, fun h => absurd h (by decide),
      fun h => absurd h (by decide)⟩, fun h => absurd h (by decide)⟩
  · exact ⟨⟨stixVersion_root (wf_of (by decide)) (by decide) he (hq hv) hev, fun h => absurd h (by decide),
      fun h => absurd h (by decide)⟩, fun h => absurd h (by decide)⟩
  · exact ⟨⟨stixVersion_root (wf_of (by decide)) (by decide) he (hq hv) hev, fun h => absurd h (by decide),
      fun h => absurd h (by decide)⟩, fun h => absurd h (by decide)⟩
  · exact absurd rfl hv

theorem cyboxCheck_right {u : Cls} {v : String} (hu : u.version = v) {t : Node} {Sel : Ctx → Prop}
    (hsel : ∀ c, u.xpathRoots.any (fun a => a.selects u.nsmap c) = true → Sel c)
    (h : ∀ c ∈ t.elems, Sel c → RightCybox v c.e) : cyboxCheckVersion u t = .ok () :=
  checkRoots_ok.2 fun c hc => hu ▸ h c (List.mem_filter.1 hc).1 (hsel c (List.mem_filter.1 hc).2)

/-- With versions the step accepts, the check is the one without versions. -/
theorem check_unchecked {w : World} {u : Updater} {rules : List Rule} {nss : Option (List String)} {ty : Bool}
    {V : Node → Prop} (hu : StepRules w u rules nss ty V) {o : Options} {t : Node} (hv : V t) :
    u.check o t = u.check (unchecked o) t := by
  have key : o.checkVersions = true ∨ o.checkVersions = false := by cases o.checkVersions <;> simp
  rcases key with ho | ho
  · cases hu with
    | cybox20 =>
      have h' : cyboxCheckVersion (cybox20Cls Tables.cybox20_nsmap xpathObservables) t = .ok () :=
        cyboxCheck_right (v := "2.0") rfl (Sel := fun c => c.e.tag = ⟨some "http://cybox.mitre.org/cybox-2", "Observables"⟩)
          (fun c hc => by
            have := (sel_abs (by decide)).1 hc
            rw [show (cybox20Cls Tables.cybox20_nsmap xpathObservables).xpathRoots.map (fun a => a.tag.resolve
              (cybox20Cls Tables.cybox20_nsmap xpathObservables).nsmap) = [⟨some "http://cybox.mitre.org/cybox-2", "Observables"⟩]
              by decide +kernel] at this
            simpa using this) hv
      simp [cybox20, cybox20Check, unchecked, ho, h']
    | cybox201 =>
      have h' : cyboxCheckVersion (cybox201Cls Tables.cybox201_nsmap xpathObservables) t = .ok () :=
        cyboxCheck_right (v := "2.0.1") rfl (Sel := fun c => c.e.tag = ⟨some "http://cybox.mitre.org/cybox-2", "Observables"⟩)
          (fun c hc => by
            have := (sel_abs (by decide)).1 hc
            rw [show (cybox201Cls Tables.cybox201_nsmap xpathObservables).xpathRoots.map (fun a => a.tag.resolve
              (cybox201Cls Tables.cybox201_nsmap xpathObservables).nsmap) = [⟨some "http://cybox.mitre.org/cybox-2", "Observables"⟩]
              by decide +kernel] at this
            simpa using this) hv
      simp [cybox201, cybox201Check, unchecked, ho, h']
    | stix10 =>
      have h1 := stixCheck_pass (u := stix10Cls) (by decide +kernel) rfl hv.1
      have h' : cyboxCheckVersion stix10Cybox t = .ok () :=
        cyboxCheck_right (v := "2.0") rfl (Sel := fun c => c.e.tag ∈ embedded10) (fun c hc => by
          have := (sel_abs (by decide +kernel)).1 hc
          rwa [show stix10Cybox.xpathRoots.map (fun a => a.tag.resolve stix10Cybox.nsmap) = embedded10 by decide +kernel] at this)
          hv.2
      simp [stix10, stix10Check, unchecked, ho, h1, h']
    | stix101 =>
      have h1 := stixCheck_pass (u := stix101Cls w) (show assoc Tables.stix101_nsmap "stix" = _ by decide +kernel) rfl hv.1
      have h' : cyboxCheckVersion stix101Cybox t = .ok () :=
        cyboxCheck_right (v := "2.0.1") rfl (Sel := fun c => c.anc ≠ [] ∧ c.e.tag ∈ embedded101) (fun c hc => by
          have := (sel_rel (by decide +kernel)).1 hc
          rwa [show stix101Cybox.xpathRoots.map (fun a => a.tag.resolve stix101Cybox.nsmap) = embedded101 by decide +kernel] at this)
          (fun c hc hs => hv.2 c hc hs.1 hs.2)
      simp [stix101, stix101Check, unchecked, ho, h1, h']
    | stix11 =>
      have h1 := stixCheck_pass (u := stix11Cls w) (show assoc Tables.stix11_nsmap "stix" = _ by decide +kernel) rfl hv
      simp [stix11, stix11Check, unchecked, ho, h1]
    | stix111 =>
      have h1 := stixCheck_pass (u := stix111Cls) (by decide +kernel) rfl hv
      simp [stix111, stix111Check, unchecked, ho, h1]
    | stix12 =>
      have h1 := stixCheck_pass (u := stix12Cls) (by decide +kernel) rfl hv
      simp [stix12, stix12Check, unchecked, ho, h1]
  · rw [show unchecked o = o by unfold unchecked; rw [← ho]]

theorem update_unchecked {w : World} {u : Updater} (hu : Registered w u) (o : Options) (t : Node) :
    u.update (unchecked o) t = u.update o t := by
  cases hu <;> rfl

theorem step_unchecked {w : World} {u : Updater} {rules : List Rule} {nss : Option (List String)} {ty : Bool}
    {V : Node → Prop} (hu : StepRules w u rules nss ty V) {o : Options} {force : Bool} {k : Nat} {t : Node} (hv : V t) :
    stepUpdate u o force k t = stepUpdate u (unchecked o) force k t := by
  have hc := check_unchecked hu (o := o) hv
  have hup := update_unchecked (stepRules_registered hu) o
  simp only [stepUpdate, tryUpdate, forceUpdate, clean, ← hc, hup]
  rfl

/-- Consecutive versions. -/
def Linked (next : String → String) : List String → Prop
  | [] => True
  | [_] => True
  | v :: v' :: vs => next v = v' ∧ Linked next (v' :: vs)

instance (next : String → String) : ∀ l, Decidable (Linked next l)
  | [] => isTrue trivial
  | [_] => isTrue trivial
  | v :: v' :: vs =>
    have : Decidable (Linked next (v' :: vs)) := instDecidableLinked next (v' :: vs)
    inferInstanceAs (Decidable (next v = v' ∧ Linked next (v' :: vs)))

theorem chain_unchecked {reg : List (String × Updater)} {o : Options} {force : Bool} {next : String → String}
    {Inv : String → Node → Prop}
    (hstep : ∀ v u t k, assoc reg v = some u → Inv v t → stepUpdate u o force k t = stepUpdate u (unchecked o) force k t)
    (hnext : ∀ v v' u u' t k r k', assoc reg v = some u → assoc reg v' = some u' → next v = v' → Inv v t →
      stepUpdate u o force k t = .ok (r, k') → Inv v' r.doc) :
    ∀ (vs : List String) (acc : Result) (k : Nat), Linked next vs → (∀ v ∈ vs.head?, Inv v acc.doc) →
      chainLoop reg o force vs acc k = chainLoop reg (unchecked o) force vs acc k
  | [], _, _, _, _ => rfl
  | v :: vs, acc, k, hl, hi => by
    simp only [chainLoop]
    cases hu : assoc reg v with
    | none => rfl
    | some u =>
      have hv := hi v rfl
      simp only
      rw [← hstep v u acc.doc k hu hv]
      cases hs : stepUpdate u o force k acc.doc with
      | error x => rfl
      | ok p =>
        obtain ⟨r, k'⟩ := p
        simp only
        cases vs with
        | nil => rfl
        | cons v' vs =>
          cases hu' : assoc reg v' with
          | none => simp only [chainLoop, hu']
          | some u' =>
            refine chain_unchecked hstep hnext (v' :: vs) _ k' hl.2 (fun x hx => ?_)
            simp only [List.head?_cons, Option.mem_def, Option.some.injEq] at hx
            subst hx
            exact hnext v v' u u' acc.doc k r k' hu hu' hl.1 hv hs

theorem stix_linked : ∀ s ∈ stixReleases, ∀ g ∈ stixReleases, Linked stixNext (between stixReleases s g) ∧
    ∀ v ∈ (between stixReleases s g).head?, v = s := by decide +kernel

/-- The release after a CybOX release. -/
def cyboxNext (v : String) : String := if v = "2.0" then "2.0.1" else "2.1"

theorem cybox_linked : ∀ s ∈ cyboxReleases, ∀ g ∈ cyboxReleases, Linked cyboxNext (between cyboxReleases s g) ∧
    ∀ v ∈ (between cyboxReleases s g).head?, v = s := by decide +kernel

theorem stix_step_accepted {w : World} {v : String} {u : Updater} (hu : assoc (stixUpdaters w) v = some u) {o : Options}
    {force : Bool} {k : Nat} {t : Node} (ht : AcceptedStix v t) :
    stepUpdate u o force k t = stepUpdate u (unchecked o) force k t := by
  have hm := assoc_mem hu
  simp only [stixUpdaters, List.mem_cons, Prod.mk.injEq, List.not_mem_nil, or_false] at hm
  rcases hm with ⟨rfl, rfl⟩ | ⟨rfl, rfl⟩ | ⟨rfl, rfl⟩ | ⟨rfl, rfl⟩ | ⟨rfl, rfl⟩
  · exact step_unchecked (w := w) .stix10 ⟨ht.1, ht.2.1 rfl⟩
  · exact step_unchecked (w := w) .stix101 ⟨ht.1, ht.2.2 rfl⟩
  · exact step_unchecked (w := w) .stix11 ht.1
  · exact step_unchecked (w := w) .stix111 ht.1
  · exact step_unchecked (w := w) .stix12 ht.1

/-! ## C45 -/

/-- C45 for one STIX step, forced or not: its result says versions that the next step accepts, whatever the document said
before.  Partial: the root must be a STIX package of the first namespace; and in a 1.0 document the places with CybOX content
that the step does not know must say CybOX 2.0.1 already (see `C45_embedded_fails`). -/
theorem C45_next_partial (w : World) (v v' : String) (hs : Successor stixReleases v v') (hl : v' ≠ "1.2.1") (u : Updater)
    (hu : stixStep w v = some u) (o : Options) (force : Bool) (k k' : Nat) (t : Node) (r : Result)
    (ht : RootTag packageTag t)
    (hlate : v = "1.0" → ∀ c ∈ t.elems, c.e.tag ∈ lateHolders → RightCybox "2.0.1" c.e)
    (h : stepUpdate u o force k t = .ok (r, k')) : AcceptedStix v' r.doc := by
  obtain ⟨i, hi, hi'⟩ := hs
  have hnx : ∀ i v v', stixReleases[i]? = some v → stixReleases[i + 1]? = some v' → stixNext v = v' ∧ v ∈ ["1.0", "1.0.1", "1.1", "1.1.1", "1.2"] := by
    intro i v v' h1 h2
    have hi : i < 5 := by
      have := (List.getElem?_eq_some_iff.1 h2).1
      simp [stixReleases] at this; omega
    match i, hi with
    | 0, _ | 1, _ | 2, _ | 3, _ | 4, _ =>
      simp only [stixReleases, List.getElem?_cons_zero, List.getElem?_cons_succ, Option.some.injEq] at h1 h2
      subst h1 h2
      decide
  obtain ⟨hn, hv⟩ := hnx i v v' hi hi'
  have hu' : assoc (stixUpdaters w) v = some u := by rw [← hu]; exact (stix_step_lookup w v hv).1
  refine hn ▸ (chainReady_next hu' ?_ ht (fun h => all_elems.2 (hlate h)) h).2.1
  rintro rfl
  exact hl hn.symm

/-- C45 for STIX: when the document says versions that the first step accepts, the update gives what it gives with the version
checks off: no later step finds a wrong version.  Partial: as `C45_next_partial`. -/
theorem C45_chain_partial (w : World) (t : Node) (from_ to_ : Option String) (s g : String) (o : Options) (force : Bool)
    (k : Nat) (hs : inForce from_ (stixRootVersion t) = some s) (hg : inForce to_ (some "1.2.1") = some g)
    (h : Older stixReleases s g) (ht : RootTag packageTag t) (ha : AcceptedStix s t)
    (hlate : s = "1.0" → ∀ c ∈ t.elems, c.e.tag ∈ lateHolders → RightCybox "2.0.1" c.e) :
    stixUpdate w t from_ to_ o force k = stixUpdate w t from_ to_ (unchecked o) force k ∧
    (∀ x, stixUpdate w t from_ to_ o force k = .error x → ¬ VersionRefusal x) := by
  have e : stixUpdate w t from_ to_ o force k = stixUpdate w t from_ to_ (unchecked o) force k := by
    rw [stixUpdate_accepted w t o force k hs hg h, stixUpdate_accepted w t (unchecked o) force k hs hg h]
    have hm := older_mem h
    have hl := stix_linked s hm.1 g hm.2
    refine chain_unchecked (next := stixNext) (Inv := ChainReady) (fun v u t k hu hi => stix_step_accepted hu hi.2.1)
      (fun v v' u u' t k r k' hu hu' hn hi hs => ?_) _ _ _ hl.1 (fun v hv => ?_)
    · refine hn ▸ chainReady_next hu ?_ hi.1 hi.2.2 hs
      rintro rfl
      rw [← hn] at hu'
      cases (show assoc (stixUpdaters w) "1.2.1" = none from rfl).symm.trans hu'
    · rw [hl.2 v hv]
      exact ⟨ht, ha, fun h => all_elems.2 (hlate h)⟩
  refine ⟨e, fun x hx => ?_⟩
  rw [e, stixUpdate_accepted w t (unchecked o) force k hs hg h] at hx
  have : ∀ (vs : List String) (acc : Result) (k : Nat), chainLoop (stixUpdaters w) (unchecked o) force vs acc k = .error x →
      ¬ VersionRefusal x := by
    intro vs
    induction vs with
    | nil => intro acc k h; cases h
    | cons v vs ih =>
      intro acc k h
      simp only [chainLoop] at h
      split at h
      · cases h; rintro (h | ⟨_, _, _, h⟩) <;> cases h
      · next u hu =>
        split at h
        · next y hy =>
          cases h
          have := C10_checks_off w u (registered_stix hu) (unchecked o) force k acc.doc x rfl hy
          rintro (h | ⟨n, a, b, h⟩)
          · exact this.1 h
          · exact this.2 n a b h
        · exact ih _ _ h
  exact this _ _ _ hx

/-- C45 for CybOX: as for STIX; here every document qualifies. -/
theorem C45_cybox (t : Node) (from_ to_ : Option String) (s g : String) (o : Options) (force : Bool)
    (k : Nat) (hs : cyboxSource t from_ = .ok (some s)) (hg : inForce to_ (some "2.1") = some g)
    (h : Older cyboxReleases s g) (ha : CyboxVersion s t) :
    cyboxUpdate t from_ to_ o force k = cyboxUpdate t from_ to_ (unchecked o) force k := by
  rw [cyboxUpdate_accepted t o force k hs hg h, cyboxUpdate_accepted t (unchecked o) force k hs hg h]
  have hm := older_mem h
  have hl := cybox_linked s hm.1 g hm.2
  refine chain_unchecked (next := cyboxNext) (Inv := CyboxVersion) (fun v u t k hu hi => ?_)
    (fun v v' u u' t k r k' hu hu' hn hi hs => ?_) _ _ _ hl.1 (fun v hv => ?_)
  · have hm := assoc_mem hu
    simp only [cyboxUpdaters, List.mem_cons, Prod.mk.injEq, List.not_mem_nil, or_false] at hm
    rcases hm with ⟨rfl, rfl⟩ | ⟨rfl, rfl⟩
    · exact step_unchecked (w := w0) .cybox20 hi
    · exact step_unchecked (w := w0) .cybox201 hi
  · have hm := assoc_mem hu
    simp only [cyboxUpdaters, List.mem_cons, Prod.mk.injEq, List.not_mem_nil, or_false] at hm
    rcases hm with ⟨rfl, rfl⟩ | ⟨rfl, rfl⟩
    · subst hn
      intro c hc ht
      exact says_right (wf_of (by decide)) ((C24_step o force k t r k').1 hs c hc ht)
    · subst hn
      cases (show assoc cyboxUpdaters "2.1" = none from rfl).symm.trans hu'
  · rw [hl.2 v hv]; exact ha

/-- A 1.0 document with CybOX 2.0 content among the technical details of a target. -/
def docTarget : Node :=
  stixDoc "1.0" [el nsTTP "TTP" [] [.elem ⟨⟨some nsTTP, "Targeted_Technical_Details"⟩, [], v20, none, none⟩ []]]

theorem accepted10_of {t : Node} (hw : WellVersioned t) (h : stix10.check o0 t = .ok ()) : AcceptedStix "1.0" t := by
  have hn : ¬ ∃ x, VersionRefusal x ∧ stix10.check o0 t = .error x := by
    rintro ⟨x, _, hx⟩
    rw [h] at hx
    cases hx
  have h := Classical.not_not.1 ((not_congr (check_versions (w := w0) .stix10 (o := o0) rfl hw)).1 hn)
  exact ⟨h.1, fun _ => h.2, fun h => absurd h (by decide)⟩

/-- C45 fails for 1.0 documents with CybOX content in a place the 1.0 step does not know: the document passes the check of the
first step and the step; the second step then refuses it for a version the first should have changed; with the checks off the
update goes through. -/
theorem C45_embedded_fails : AcceptedStix "1.0" docTarget ∧ (stepUpdate stix10 o0 false 0 docTarget).isOk = true ∧
    wrongVersion (stixUpdate w0 docTarget none (some "1.1") o0 false 0) =
      some (some ⟨some nsTTP, "Targeted_Technical_Details"⟩, some "2.0.1", some "2.0") ∧
    (stixUpdate w0 docTarget none (some "1.1") (unchecked o0) false 0).isOk = true := by
  exact ⟨accepted10_of (wellVersioned_of (by decide +kernel)) (by decide +kernel), by decide +kernel, by decide +kernel, by decide +kernel⟩

/-- A 1.0 document with CybOX content in a known place, and in a late one with the newer version. -/
def docTargetNew : Node :=
  stixDoc "1.0" [.elem ⟨⟨some nsStix, "Observables"⟩, [], v20, none, none⟩ [],
    el nsTTP "TTP" [] [.elem ⟨⟨some nsTTP, "Targeted_Technical_Details"⟩, [], v201, none, none⟩ []]]

/-- The hypotheses of `C45_next_partial` and `C45_chain_partial` for the step from 1.0. -/
example : AcceptedStix "1.0" docTargetNew ∧ RootTag packageTag docTargetNew ∧
    (∀ c ∈ docTargetNew.elems, c.e.tag ∈ lateHolders → RightCybox "2.0.1" c.e) ∧
    Successor stixReleases "1.0" "1.0.1" ∧ Older stixReleases "1.0" "1.2.1" ∧
    (stepUpdate stix10 o0 false 0 docTargetNew).isOk = true ∧
    (stixUpdate w0 docTargetNew none none o0 false 0).isOk = true := by
  refine ⟨accepted10_of (wellVersioned_of (by decide +kernel)) (by decide +kernel), ⟨_, rfl, by decide⟩, ?_, ⟨0, rfl, rfl⟩,
    (older_iff stix_nodup (by decide) (by decide)).2 (by decide), by decide +kernel, by decide +kernel⟩
  intro c hc hm
  have hd : (docTargetNew.elems.all fun c => decide (c.e.tag ∈ lateHolders → (cyboxGetVersion c.e : Except Err String) = .ok "2.0.1")) = true := by
    decide +kernel
  have := of_decide_eq_true (List.all_eq_true.1 hd c hc) hm
  obtain ⟨n, hn⟩ := Classical.not_not.1 (wf_of (v := "2.0.1") (by decide))
  exact ⟨_, n, getVersion_iff.1 this, hn, hn⟩

/-- The hypotheses of `C45_cybox`. -/
example : CyboxVersion "2.0" (cyboxDoc v20 [cyboxDoc v20 []]) ∧
    (cyboxUpdate (cyboxDoc v20 [cyboxDoc v20 []]) none none o0 false 0).isOk = true := by
  refine ⟨?_, by decide +kernel⟩
  have hn : ¬ ∃ x, VersionRefusal x ∧ cybox20.check o0 (cyboxDoc v20 [cyboxDoc v20 []]) = .error x := by
    rintro ⟨x, _, hx⟩
    rw [show cybox20.check o0 (cyboxDoc v20 [cyboxDoc v20 []]) = .ok () by decide +kernel] at hx
    cases hx
  exact Classical.not_not.1 ((not_congr (check_versions (w := w0) .cybox20 (o := o0) rfl (wellVersioned_of (by decide +kernel)))).1 hn)

end Ramrod
