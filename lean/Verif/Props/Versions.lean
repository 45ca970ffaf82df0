import Verif.Lemmas.Cut
import Verif.Props.Release
/-!
# Version attributes all over the document: C23, C24
-/

namespace Ramrod

open Samples

/-! ## Specification vocabulary -/

/-- The STIX constructs that may carry a version: each in its own, the core and the common namespace. -/
def versionedConstructs : List QName :=
  [("Indicator", "http://stix.mitre.org/Indicator-2"), ("Incident", "http://stix.mitre.org/Incident-1"),
   ("TTP", "http://stix.mitre.org/TTP-1"), ("Course_Of_Action", "http://stix.mitre.org/CourseOfAction-1"),
   ("Threat_Actor", "http://stix.mitre.org/ThreatActor-1"), ("Campaign", "http://stix.mitre.org/Campaign-1"),
   ("Exploit_Target", "http://stix.mitre.org/ExploitTarget-1")].flatMap
    (fun p => [⟨some p.2, p.1⟩, ⟨some "http://stix.mitre.org/stix-1", p.1⟩,
      ⟨some "http://stix.mitre.org/common-1", p.1⟩])

/-- Packages always, the other constructs when they have a `version`, carry version `v` (indicators `i`). -/
def RightVersion (i v : String) (e : Elem) : Prop :=
  (e.tag = packageTag ∨ (e.tag ∈ versionedConstructs ∧ e.get? (.plain "version") ≠ none)) →
  e.get? (.plain "version") = some (if e.tag.name = "Indicator" then i else v)

/-- The document below and including the root: every element. -/
def EveryElement (P : Elem → Prop) (t : Node) : Prop := ∀ c ∈ t.elems, P c.e

/-! ## Helpers -/

theorem all_true : ∀ t : Node, t.All (fun _ => True) := fun _ => all_elems.2 (fun _ _ => trivial)

/-- The selectors of `_update_versions` cover the constructs. -/
def Covers (m : List (String × String)) : Prop :=
  (∃ a ∈ xpathStixVersioned, a.abs = true ∧ a.parent = none ∧ a.pred = .none ∧ a.tag.resolve m = packageTag) ∧
  ∀ q ∈ versionedConstructs, ∃ a ∈ xpathStixVersioned, a.abs = true ∧ a.parent = none ∧
    a.pred = .hasAttr "version" ∧ a.tag.resolve m = q

instance (m : List (String × String)) : Decidable (Covers m) := by unfold Covers; infer_instance

theorem covers_stix10 : Covers Tables.stix10_nsmap := by decide +kernel
theorem covers_stix101 : Covers Tables.stix101_nsmap := by decide +kernel
theorem covers_stix11 : Covers Tables.stix11_nsmap := by decide +kernel
theorem covers_stix111 : Covers Tables.stix111_nsmap := by decide +kernel

theorem rightVersion_set {m : List (String × String)} (hm : Covers m) (i v : String) (t : Node) :
    (t.edit (versionEdit m xpathStixVersioned (setStixVersion i v))).All (RightVersion i v) := by
  refine all_edit (all_true t) (fun c _ _ => ?_)
  unfold versionEdit
  split
  · intro _
    unfold setStixVersion
    rw [Elem.get?_set, if_pos (show attrVersion = QName.plain "version" from rfl)]
    rfl
  · next hs =>
    intro hc
    exfalso
    apply hs
    rcases hc with hc | ⟨hc, hv⟩
    · obtain ⟨a, ha, h1, h2, h3, h4⟩ := hm.1
      refine List.any_eq_true.2 ⟨a, ha, ?_⟩
      simp [XAlt.selects, h1, h2, h3, h4, hc, XPred.holds]
    · obtain ⟨a, ha, h1, h2, h3, h4⟩ := hm.2 _ hc
      refine List.any_eq_true.2 ⟨a, ha, ?_⟩
      have : c.e.has (.plain "version") = true := by
        rw [Elem.has_eq]; cases h : c.e.get? (.plain "version")
        · exact absurd h hv
        · rfl
      simp [XAlt.selects, h1, h2, h3, h4, XPred.holds, this]

/-- What a vocabulary update does to attributes. -/
theorem updateNode_get? {v : Vocab} {e e' : Elem} (h : v.updateNode e = .ok e') {k : QName}
    (h1 : k ≠ tagXsiType) (h2 : k ≠ attrVocabReference) (h3 : k ≠ attrVocabName) : e'.get? k = e.get? k := by
  simp only [Vocab.updateNode] at h
  split at h
  · cases h
  · next al _ _ =>
    split at h
    · cases h
    · next e2 he2 =>
      have hk2 : e2.get? k = e.get? k := by
        split at he2
        · split at he2
          · simp only [Except.ok.injEq] at he2
            rw [← he2, Elem.get?_set, if_neg (Ne.symm h2), Elem.get?_set, if_neg (Ne.symm h1)]
          · cases he2
        · simp only [Except.ok.injEq] at he2
          rw [← he2, Elem.get?_set, if_neg (Ne.symm h1)]
      have hk3 : (if e2.has attrVocabName = true then e2.set attrVocabName v.name else e2).get? k = e.get? k := by
        split
        · rw [Elem.get?_set, if_neg (Ne.symm h3), hk2]
        · exact hk2
      split at h
      · split at h
        · simp only [Except.ok.injEq] at h; rw [← h]; exact hk3
        · simp only [Except.ok.injEq] at h; rw [← h]; exact hk3
      · simp only [Except.ok.injEq] at h; rw [← h]; exact hk3

theorem rightVersion_congr {i v : String} {e e' : Elem} (ht : e'.tag = e.tag)
    (hv : e'.get? (.plain "version") = e.get? (.plain "version")) (h : RightVersion i v e) : RightVersion i v e' := by
  unfold RightVersion at h ⊢
  rw [ht, hv]; exact h

theorem rightVersion_vocab {i v : String} {vs : List Vocab} : ∀ vo ∈ vs, ∀ e e', RightVersion i v e →
    vo.updateNode e = .ok e' → RightVersion i v e' := fun _ _ _ _ h he =>
  rightVersion_congr (updateNode_keeps he).1
    (updateNode_get? he (by decide) (by decide) (by decide)) h

/-- Elements whose tag is not versioned satisfy the requirement trivially. -/
theorem rightVersion_other {i v : String} {e : Elem} (h1 : e.tag ≠ packageTag) (h2 : e.tag ∉ versionedConstructs) :
    RightVersion i v e := by
  rintro (h | h)
  · exact absurd h h1
  · exact absurd h.1 h2

theorem stix10_versions {o : Options} {t d : Node} (h : stix10Update o t = .ok d) :
    d.All (RightVersion "2.0.1" "1.0.1") := by
  simp only [stix10Update] at h
  split at h
  · cases h
  · rw [stixVersions_eq] at h
    exact all_vocabsIf (rightVersion_set covers_stix10 _ _ _) h rightVersion_vocab

theorem stix111_versions {o : Options} {t d : Node} (h : stix111Update o t = .ok d) :
    d.All (RightVersion "2.2" "1.2") := by
  simp only [stix111Update] at h
  rw [stixVersions_eq] at h
  exact all_vocabsIf (rightVersion_set covers_stix111 _ _ _) h rightVersion_vocab

theorem all_newElem {P : Elem → Prop} {tag : QName} {attrs : Attrs} {text : Option String} {kids : List Node}
    (h1 : P ⟨tag, [], attrs, text, none⟩) (h2 : Node.Alls P kids) : (newElem tag attrs text kids).All P := ⟨h1, h2⟩

theorem stix101_translate_versions {w : World} {t t' : Node} (h : t.All (RightVersion "2.1" "1.1"))
    (ht : translateFields (stix101Cls w).translatable t = .ok t') : t'.All (RightVersion "2.1" "1.1") := by
  refine all_translateFields h ht ?_ ?_
  · intro f hf tag hk
    simp only [stix101Cls, List.mem_cons, List.not_mem_nil, or_false] at hf
    rcases hf with rfl | rfl <;> simp [transContributors, transExploitTargets] at hk
  · intro f hf c n _ hc hy
    simp only [stix101Cls, List.mem_cons, List.not_mem_nil, or_false] at hf
    rcases hf with rfl | rfl
    · change translateContributors c = .ok n at hy
      simp only [translateContributors] at hy
      split at hy
      · cases hy
      · next ks hks =>
        simp only [Except.ok.injEq] at hy
        rw [← hy]
        refine all_newElem (rightVersion_other (by decide) (by decide)) (alls_iff.2 ?_)
        intro k hk
        obtain ⟨k0, hk0, hk1⟩ := mapE_mem hks k hk
        cases k0 with
        | other _ _ => cases hk1
        | elem e es =>
          simp only [translateContributor, Except.ok.injEq] at hk1
          rw [← hk1]
          refine all_newElem (rightVersion_other (by decide) (by decide)) ⟨⟨?_, ?_⟩, trivial⟩
          · exact rightVersion_other (show (⟨some nsCommon, "Identity"⟩ : QName) ≠ packageTag by decide)
              (show (⟨some nsCommon, "Identity"⟩ : QName) ∉ versionedConstructs by decide)
          · have := alls_iff.1 hc.2 _ hk0
            exact this.2
    · change wrapExploitTarget c = .ok n at hy
      simp only [wrapExploitTarget, Except.ok.injEq] at hy
      rw [← hy]
      exact all_newElem (rightVersion_other (by decide) (by decide)) ⟨hc, trivial⟩

theorem stix101_versions {w : World} {o : Options} {t d : Node} (h : stix101Update w o t = .ok d) :
    d.All (RightVersion "2.1" "1.1") := by
  simp only [stix101Update] at h
  split at h
  · cases h
  · rw [stixVersions_eq] at h
    split at h
    · cases h
    · next t2 h2 =>
      split at h
      · cases h
      · next t3 h3 =>
        refine all_optionalsIf (all_vocabsIf (stix101_translate_versions ?_ h2) h3 rightVersion_vocab) h
        exact rightVersion_set covers_stix101 _ _ _

/-! ## C23 -/

/-- C23 for the steps 1.0 → 1.0.1, 1.0.1 → 1.1 and 1.1.1 → 1.2: after a successful step, forced or not,
every package and every construct with a version carries the release's number (indicators their own). -/
theorem C23_versions_partial (w : World) (o : Options) (force : Bool) (k : Nat) (t : Node) (r : Result) (k' : Nat) :
    (stepUpdate stix10 o force k t = .ok (r, k') → EveryElement (RightVersion "2.0.1" "1.0.1") r.doc) ∧
    (stepUpdate (stix101 w) o force k t = .ok (r, k') → EveryElement (RightVersion "2.1" "1.1") r.doc) ∧
    (stepUpdate stix111 o force k t = .ok (r, k') → EveryElement (RightVersion "2.2" "1.2") r.doc) := by
  refine ⟨fun h => ?_, fun h => ?_, fun h => ?_⟩
  · obtain ⟨t1, _, hu⟩ := step_update (w := w) .stix10 h
    exact all_elems.1 (stix10_versions hu)
  · obtain ⟨t1, _, hu⟩ := step_update (w := w) .stix101 h
    exact all_elems.1 (stix101_versions hu)
  · obtain ⟨t1, _, hu⟩ := step_update (w := w) .stix111 h
    exact all_elems.1 (stix111_versions hu)

example : (stepUpdate stix111 o0 false 0 doc111).isOk = true ∧
    ∃ c ∈ doc111.elems, c.e.tag ∈ versionedConstructs ∧ c.e.get? (.plain "version") = some "1.1.1" := by
  refine ⟨by decide +kernel, ?_⟩
  exact ⟨⟨[0], _, _, _, _⟩, List.mem_cons_of_mem _ (List.mem_cons_self ..), by decide +kernel, by decide +kernel⟩

/-- A 1.1 package whose indicator refers to a campaign that carries a version. -/
def docCampaign : Node :=
  stixDoc "1.1"
    [el nsIndicator "Related_Campaigns" [] [el nsIndicator "Related_Campaign" [at_ "version" "1.1"] []]]

instance {i v : String} {e : Elem} : Decidable (RightVersion i v e) := by unfold RightVersion; infer_instance
instance {P : Elem → Prop} [∀ e, Decidable (P e)] {t : Node} : Decidable (EveryElement P t) := by
  unfold EveryElement; infer_instance

/-- Read a concrete outcome off its evaluation. -/
theorem ok_of_eval {ε α : Type} {x : Except ε α} {P : α → Prop} [∀ a, Decidable (P a)]
    (h : (match x with | .ok a => decide (P a) | .error _ => false) = true) : ∃ a, x = .ok a ∧ P a := by
  cases x with
  | ok a => exact ⟨a, rfl, of_decide_eq_true h⟩
  | error _ => cases h

/-- C23 fails for 1.1 → 1.1.1: a related campaign's version becomes the version of a new
`stixCommon:Campaign` element and keeps the old number. -/
theorem C23_related_campaign_fails : ∃ r, stepUpdate (stix11 w0) o0 false 0 docCampaign = .ok r ∧
    ¬ EveryElement (RightVersion "2.1.1" "1.1.1") r.1.doc := ok_of_eval (by decide +kernel)

/-- Names of the elements the 1.1 → 1.1.1 step translates. -/
def relatedCampaignTag : QName := ⟨some "http://stix.mitre.org/Indicator-2", "Related_Campaign"⟩
def sourceTags : List QName :=
  [⟨some "http://stix.mitre.org/common-1", "Source"⟩, ⟨some "http://stix.mitre.org/Indicator-2", "Source"⟩]

/-- No related campaign has a version, and source texts contain no markup characters. -/
def PlainSources (e : Elem) : Prop :=
  (e.tag = relatedCampaignTag → e.get? (.plain "version") = none) ∧
  (e.tag ∈ sourceTags → ∀ s, e.text = some s → xmlPlain s = true)

instance {e : Elem} : Decidable (PlainSources e) :=
  decidable_of_iff ((e.tag = relatedCampaignTag → e.get? (.plain "version") = none) ∧
    (e.tag ∈ sourceTags → e.text.all xmlPlain = true)) (by
    unfold PlainSources
    cases e.text <;> simp)

theorem plainSources_congr {e e' : Elem} (ht : e'.tag = e.tag)
    (hv : e'.get? (.plain "version") = e.get? (.plain "version")) (hx : e'.text = e.text) (h : PlainSources e) :
    PlainSources e' := by
  unfold PlainSources at h ⊢
  rw [ht, hv, hx]; exact h

theorem stix11_clean (w : World) (o : Options) (k : Nat) (t : Node) :
    clean (stix11 w) o k t = .ok (⟨t, [], []⟩, k) := rfl

theorem stix11_step {w : World} {o : Options} {force : Bool} {k : Nat} {t : Node} {r : Result} {k' : Nat}
    (h : stepUpdate (stix11 w) o force k t = .ok (r, k')) : stix11Update w o t = .ok r.doc := by
  simp only [stepUpdate] at h
  split at h
  · next d hd =>
    simp only [Except.ok.injEq, Prod.mk.injEq] at h
    rw [← h.1]
    simp only [tryUpdate] at hd
    split at hd
    · cases hd
    · exact hd
  · split at h
    · simp only [forceUpdate, stix11_clean] at h
      split at h
      · cases h
      · next d hd =>
        simp only [Except.ok.injEq, Prod.mk.injEq] at h
        rw [← h.1]; exact hd
    · cases h

theorem source_selected {w : World} {c : Ctx}
    (h : (transCommonSource w).xpath.any (fun a => a.selects (transCommonSource w).nsmap c) = true ∨
      (transSightingsSource w).xpath.any (fun a => a.selects (transSightingsSource w).nsmap c) = true) :
    c.e.tag ∈ sourceTags := by
  rcases h with h | h
  · obtain ⟨a, ha, hs⟩ := List.any_eq_true.1 h
    simp only [transCommonSource, List.mem_map] at ha
    obtain ⟨p, _, rfl⟩ := ha
    simp only [XAlt.selects, Bool.and_eq_true, decide_eq_true_eq] at hs
    rw [hs.1.1]
    exact (show XName.resolve Tables.stix11_nsmap ⟨"stixCommon", "Source"⟩ ∈ sourceTags by decide)
  · obtain ⟨a, ha, hs⟩ := List.any_eq_true.1 h
    simp only [transSightingsSource, List.mem_cons, List.not_mem_nil, or_false] at ha
    subst ha
    simp only [XAlt.selects, Bool.and_eq_true, decide_eq_true_eq] at hs
    rw [hs.1.1]
    exact (show XName.resolve Tables.stix11_nsmap ⟨"indicator", "Source"⟩ ∈ sourceTags by decide)

theorem formatText_plain {o : Option String} (h : ∀ s, o = some s → xmlPlain s = true) :
    xmlPlain (formatText o) = true := by
  cases o with
  | none => decide
  | some s => exact h s rfl

theorem all_sourceNode {P : Elem → Prop} {q : QName} {d1 d2 : NsMap} {s : String}
    (h1 : P ⟨q, d1, [], some "\n            ", none⟩)
    (h2 : P ⟨⟨some nsCommon, "Identity"⟩, d2, [], some "\n                ", some "\n        "⟩)
    (h3 : P ⟨⟨some nsCommon, "Name"⟩, [], [], some s, some "\n            "⟩) : (sourceNode q d1 d2 s).All P :=
  ⟨h1, ⟨h2, ⟨h3, trivial⟩, trivial⟩, trivial⟩

theorem stix11_translate_versions {w : World} {t t' : Node}
    (h : t.All (fun e => RightVersion "2.1.1" "1.1.1" e ∧ PlainSources e))
    (ht : translateFields (stix11Cls w).translatable t = .ok t') :
    t'.All (fun e => RightVersion "2.1.1" "1.1.1" e ∧ PlainSources e) := by
  refine all_translateFields h ht ?_ ?_
  · intro f hf tag hk
    simp only [stix11Cls, List.mem_cons, List.not_mem_nil, or_false] at hf
    rcases hf with rfl | rfl | rfl <;> simp [transCommonSource, transSightingsSource, transRelatedCampaign] at hk
  · intro f hf c n hsel hc hy
    simp only [stix11Cls, List.mem_cons, List.not_mem_nil, or_false] at hf
    have hplain : ∀ (q : QName) (_ : q ≠ relatedCampaignTag) (_ : q ≠ packageTag) (_ : q ∉ versionedConstructs)
        (d : NsMap) (s : String) (tl : Option String), (q ∈ sourceTags → xmlPlain s = true) →
        RightVersion "2.1.1" "1.1.1" ⟨q, d, [], some s, tl⟩ ∧ PlainSources ⟨q, d, [], some s, tl⟩ := by
      intro q h1 h2 h3 d s tl h4
      refine ⟨rightVersion_other h2 h3, fun h => absurd h h1, fun hq s' hs' => ?_⟩
      simp only [Option.some.injEq] at hs'
      rw [← hs']; exact h4 hq
    rcases hf with rfl | rfl | rfl
    · change translateCommonSource w c = .ok n at hy
      have hp := formatText_plain (hc.1.2.2 (source_selected (w := w) (Or.inl hsel)))
      simp only [translateCommonSource, hp, if_true, Except.ok.injEq] at hy
      rw [← hy]
      exact all_sourceNode (hplain _ (by decide) (by decide) (by decide) _ _ _ (fun _ => by decide))
        (hplain _ (by decide) (by decide) (by decide) _ _ _ (fun h => absurd h (by decide)))
        (hplain _ (by decide) (by decide) (by decide) _ _ _ (fun h => absurd h (by decide)))
    · change translateSightingSource w c = .ok n at hy
      have hp := formatText_plain (hc.1.2.2 (source_selected (w := w) (Or.inr hsel)))
      simp only [translateSightingSource, hp, if_true, Except.ok.injEq] at hy
      rw [← hy]
      exact all_sourceNode (hplain _ (by decide) (by decide) (by decide) _ _ _ (fun _ => by decide))
        (hplain _ (by decide) (by decide) (by decide) _ _ _ (fun h => absurd h (by decide)))
        (hplain _ (by decide) (by decide) (by decide) _ _ _ (fun h => absurd h (by decide)))
    · change wrapRelatedCampaign c = .ok n at hy
      simp only [wrapRelatedCampaign, Except.ok.injEq] at hy
      have htag : c.e.tag = relatedCampaignTag := by
        obtain ⟨a, ha, hs⟩ := List.any_eq_true.1 hsel
        simp only [transRelatedCampaign, List.mem_cons, List.not_mem_nil, or_false] at ha
        subst ha
        simp only [XAlt.selects, Bool.and_eq_true, decide_eq_true_eq] at hs
        rw [hs.1.1]; decide
      have hv := hc.1.2.1 htag
      rw [← hy]
      refine all_newElem ⟨rightVersion_other (by decide) (by decide), fun _ => rfl, fun h => absurd h (by decide)⟩
        ⟨⟨⟨?_, ?_⟩, hc.2⟩, trivial⟩
      · rintro (h | ⟨_, h⟩)
        · exact absurd (show (⟨some nsCommon, "Campaign"⟩ : QName) = packageTag from h) (by decide)
        · exact absurd hv h
      · exact ⟨fun h => absurd (show (⟨some nsCommon, "Campaign"⟩ : QName) = relatedCampaignTag from h) (by decide),
          fun h => absurd (show (⟨some nsCommon, "Campaign"⟩ : QName) ∈ sourceTags from h) (by decide)⟩

theorem plainSources_version {i v : String} {t : Node} (h : t.All PlainSources) :
    (t.edit (versionEdit Tables.stix11_nsmap xpathStixVersioned (setStixVersion i v))).All PlainSources := by
  refine all_edit h (fun c _ hc => ?_)
  unfold versionEdit
  split
  · next hs =>
    refine ⟨fun ht => ?_, fun ht => hc.2 ht⟩
    exfalso
    obtain ⟨a, ha, hsel⟩ := List.any_eq_true.1 hs
    simp only [XAlt.selects, Bool.and_eq_true, decide_eq_true_eq] at hsel
    have hne : ∀ a ∈ xpathStixVersioned, a.tag.resolve Tables.stix11_nsmap ≠ relatedCampaignTag := by decide +kernel
    exact hne a ha (hsel.1.1 ▸ ht)
  · exact hc

theorem plainSources_schemaloc {u : Cls} {t : Node} (h : t.All PlainSources) :
    (u.updateSchemalocs t).All PlainSources := by
  rw [updateSchemalocs_eq]
  refine all_edit h (fun c _ hc => ?_)
  unfold schemalocEdit
  split
  · refine plainSources_congr (updateSchemalocsElem_tag u _) (updateSchemalocsElem_get? u _ (by decide)) ?_ hc
    unfold Cls.updateSchemalocsElem; split <;> rfl
  · exact hc

theorem all_and {P Q : Elem → Prop} {t : Node} (h1 : t.All P) (h2 : t.All Q) : t.All (fun e => P e ∧ Q e) :=
  all_elems.2 (fun c hc => ⟨all_elems.1 h1 c hc, all_elems.1 h2 c hc⟩)

/-- C23 for 1.1 → 1.1.1, for documents whose related campaigns carry no version (for those see
`C23_related_campaign_fails`) and whose source strings contain no markup characters (those are handed to
an XML parser whose result is arbitrary here). -/
theorem C23_stix11_partial (w : World) (o : Options) (force : Bool) (k : Nat) (t : Node) (r : Result) (k' : Nat)
    (ht : EveryElement PlainSources t) (h : stepUpdate (stix11 w) o force k t = .ok (r, k')) :
    EveryElement (RightVersion "2.1.1" "1.1.1") r.doc := by
  have hu := stix11_step h
  simp only [stix11Update] at hu
  rw [stixVersions_eq] at hu
  split at hu
  · cases hu
  · next t2 h2 =>
    split at hu
    · cases hu
    · next t3 h3 =>
      refine all_elems.1 (all_optionalsIf (all_vocabsIf ((stix11_translate_versions ?_ h2).mono
        (fun _ h => h.1)) h3 rightVersion_vocab) hu)
      exact all_and (rightVersion_set covers_stix11 _ _ _)
        (plainSources_version (plainSources_schemaloc (plainSources_schemaloc (all_elems.2 ht))))

/-- A 1.1 package with a versioned indicator, a related campaign and a sighting source. -/
def docSources : Node :=
  stixDoc "1.1"
    [el nsStix "Indicator" [at_ "version" "2.1"]
      [el nsIndicator "Related_Campaigns" [] [el nsIndicator "Related_Campaign" [at_ "idref" "c"] []],
       el nsIndicator "Sighting" [] [el nsIndicator "Source" [] [] (some "me")]]]

example : EveryElement PlainSources docSources ∧ (stepUpdate (stix11 w0) o0 false 0 docSources).isOk = true := by
  decide +kernel

/-- A 1.2 package holding another package. -/
def docNested : Node := stixDoc "1.2" [el nsStix "Related_Packages" [] [el nsStix "STIX_Package" [at_ "version" "1.2"] []]]

/-- C23 fails for 1.2 → 1.2.1: a package inside the root package keeps version 1.2. -/
theorem C23_nested_package_fails : ∃ r, stepUpdate stix12 o0 false 0 docNested = .ok r ∧
    ¬ EveryElement (fun e => e.tag.name = "STIX_Package" → e.get? (.plain "version") = some "1.2.1") r.1.doc :=
  ok_of_eval (by decide +kernel)

/-! ## C24 -/

/-- Every `cybox:Observables` element says version `v`. -/
def ObservablesSay (v : String) (e : Elem) : Prop := e.tag = observablesTag → SaysCybox e v

theorem observables_set {m : List (String × String)} {g : Elem → Elem} {v : String} (t : Node)
    (hm : assoc m "cybox" = some "http://cybox.mitre.org/cybox-2") (hg : ∀ e, SaysCybox (g e) v) :
    (t.edit (versionEdit m xpathObservables g)).All (ObservablesSay v) := by
  refine all_edit (all_true t) (fun c _ _ => ?_)
  unfold versionEdit
  split
  · exact fun _ => hg _
  · next hs =>
    intro hc
    refine absurd ?_ hs
    refine List.any_eq_true.2 ⟨absX "cybox" "Observables", by simp [xpathObservables], ?_⟩
    simp [XAlt.selects, absX, XName.resolve, hm, hc, observablesTag, XPred.holds]

theorem saysCybox_201 (e : Elem) : SaysCybox (setVersion201 e) "2.0.1" := by
  refine ⟨"2", "0", ?_, by decide, ?_, by decide, Or.inr ⟨"1", by decide, ?_, by decide⟩⟩ <;>
    simp [setVersion201, Elem.get?_set, attrMajor, attrMinor, attrUpdate, QName.plain]

theorem saysCybox_21 (e : Elem) : SaysCybox (setVersion21 e) "2.1" := by
  refine ⟨"2", "1", ?_, by decide, ?_, by decide, Or.inl ⟨?_, by decide⟩⟩ <;>
    simp [setVersion21, Elem.get?_set, Elem.get?_del, attrMajor, attrMinor, attrUpdate, QName.plain]

theorem saysCybox_congr {e e' : Elem} {v : String}
    (h : ∀ k : QName, k ≠ tagXsiType → k ≠ attrVocabReference → k ≠ attrVocabName → e'.get? k = e.get? k)
    (hs : SaysCybox e v) : SaysCybox e' v := by
  unfold SaysCybox at hs ⊢
  rw [h _ (by decide) (by decide) (by decide), h _ (by decide) (by decide) (by decide),
    h _ (by decide) (by decide) (by decide)]
  exact hs

theorem observables_vocab {v : String} {vs : List Vocab} : ∀ vo ∈ vs, ∀ e e', ObservablesSay v e →
    vo.updateNode e = .ok e' → ObservablesSay v e' := fun _ _ _ _ h he ht =>
  saysCybox_congr (fun _ h1 h2 h3 => updateNode_get? he h1 h2 h3) (h ((updateNode_keeps he).1 ▸ ht))

/-- The elements the 2.0.1 → 2.1 step creates: a predicate that holds for any element with one of their
names survives the translation. -/
theorem all_cybox201_translate {P : Elem → Prop} {t t' : Node} (h : t.All P)
    (ht : translateFields cybox201Translatable t = .ok t')
    (hP : ∀ e : Elem, e.tag.ns = some nsHTTPSession ∨ e.tag.ns = some nsPacket ∨ e.tag.ns = some nsWinMailslot → P e) :
    t'.All P := by
  refine all_translateFields h ht ?_ ?_
  · intro f hf tag hk e _
    simp only [cybox201Translatable, List.mem_cons, List.not_mem_nil, or_false] at hf
    rcases hf with rfl | rfl | rfl | rfl | rfl | rfl | rfl | rfl <;>
      simp [transDNT, transVary, transRefresh, transMailslot, transXRequestedFor, transAuthData, transEncapsulating,
        transProtoAddrSize] at hk <;> subst hk <;> exact hP _ (by simp)
  · intro f hf c n hsel hc hy
    have hval : ∀ (p : Option XName) (ov : List (QName × String)) (x : String),
        c.e.tag = XName.resolve Tables.cybox201_nsmap ⟨"HTTPSessionObj", x⟩ →
        translateValue Tables.cybox201_nsmap p none true ov c = .ok n → n.All P := by
      intro p ov x hx hy
      simp only [translateValue] at hy
      split at hy
      · cases hy
      · simp only [Except.ok.injEq] at hy
        rw [← hy]
        refine all_newElem (hP _ (Or.inl ?_)) trivial
        show (Option.getD none c.e.tag).ns = _
        rw [Option.getD_none, hx]
        exact (show assoc Tables.cybox201_nsmap "HTTPSessionObj" = _ by decide)
    simp only [cybox201Translatable, List.mem_cons, List.not_mem_nil, or_false] at hf
    rcases hf with rfl | rfl | rfl | rfl | rfl | rfl | rfl | rfl
    case inr.inr.inr.inr.inr.inr.inr =>
      change Except.ok _ = Except.ok n at hy
      simp only [Except.ok.injEq] at hy
      rw [← hy]
      exact ⟨hP _ (Or.inr (Or.inr rfl)), hc.2⟩
    all_goals first
      | exact False.elim hy
      | (obtain ⟨a, ha, hs⟩ := List.any_eq_true.1 hsel
         simp only [transDNT, transVary, transRefresh, List.mem_cons, List.not_mem_nil, or_false] at ha
         subst ha
         simp only [XAlt.selects, Bool.and_eq_true, decide_eq_true_eq] at hs
         exact hval _ _ _ hs.1.1 hy)

theorem cybox20_observables {o : Options} {t d : Node}
    (h : cybox20Update (cybox20Cls Tables.cybox20_nsmap xpathObservables) o t = .ok d) :
    d.All (ObservablesSay "2.0.1") := by
  simp only [cybox20Update] at h
  rw [cybox20Versions_eq, updateLists_eq] at h
  refine all_vocabsIf (all_edit (observables_set _ (by decide) saysCybox_201) (fun c _ hc => ?_)) h observables_vocab
  intro ht
  have hk := keeps_lists Tables.cybox20_nsmap c
  have ha := iter_lists_keeps (propsDepth ((⟨"cybox", "Object"⟩ : XName).resolve Tables.cybox20_nsmap)
    ((⟨"cybox", "Properties"⟩ : XName).resolve Tables.cybox20_nsmap) c.anc) c.e
  refine saysCybox_congr (fun k _ _ _ => ?_) (hc (hk.1 ▸ ht))
  unfold Elem.get?
  exact congrArg (fun as => Attrs.get? as k) ha.2.2.1

theorem cybox201_observables {o : Options} {t d : Node}
    (h : cybox201Update (cybox201Cls Tables.cybox201_nsmap xpathObservables) o t = .ok d) :
    d.All (ObservablesSay "2.1") := by
  simp only [cybox201Update] at h
  rw [cybox201Versions_eq] at h
  split at h
  · cases h
  · next t1 h1 =>
    split at h
    · cases h
    · next t2 h2 =>
      refine all_optionalsIf (all_vocabsIf (all_cybox201_translate
        (observables_set _ (by decide) saysCybox_21) h1 ?_) h2 observables_vocab) h
      intro e he ht
      rw [ht] at he
      exact absurd he (by decide)

/-- C24, one step: after a successful CybOX step, forced or not, every `cybox:Observables` element of the
document, nested ones included, says the release of the step, whatever it said before. -/
theorem C24_step (o : Options) (force : Bool) (k : Nat) (t : Node) (r : Result) (k' : Nat) :
    (stepUpdate cybox20 o force k t = .ok (r, k') → EveryElement (ObservablesSay "2.0.1") r.doc) ∧
    (stepUpdate cybox201 o force k t = .ok (r, k') → EveryElement (ObservablesSay "2.1") r.doc) := by
  refine ⟨fun h => ?_, fun h => ?_⟩
  · obtain ⟨t1, _, hu⟩ := step_update (w := w0) .cybox20 h
    exact all_elems.1 (cybox20_observables hu)
  · obtain ⟨t1, _, hu⟩ := step_update (w := w0) .cybox201 h
    exact all_elems.1 (cybox201_observables hu)

example : (stepUpdate cybox20 o0 false 0 (cyboxDoc v20 [cyboxDoc v20 []])).isOk = true ∧
    (stepUpdate cybox201 o0 true 0 (cyboxDoc v201 [cyboxDoc v20 []])).isOk = true := by decide +kernel

/-- C24, whole update: after `update` of a document whose root is named `Observables`, every
`cybox:Observables` element says the target in force. -/
theorem C24_update (w : World) (root : Elem) (ks : List Node) (hroot : root.tag.name = "Observables")
    (from_ to_ : Option String) (o : Options) (force : Bool) (k : Nat) (g : String)
    (hg : inForce to_ (some "2.1") = some g) (r : Result) (k' : Nat)
    (h : update w (.elem root ks) from_ to_ o force k = .ok (r, k')) :
    EveryElement (ObservablesSay g) r.doc := by
  rw [(C01_dispatch w root ks from_ to_ o force k).2.1 hroot] at h
  obtain ⟨s, hs, hold⟩ := cybox_ok_range hg h
  rw [cyboxUpdate_accepted _ o force k hs hg hold] at h
  have hm := older_mem hold
  obtain ⟨v, hv, hb, hnext⟩ :=
    cybox_between_last s hm.1 g hm.2 ((older_iff cybox_nodup hm.1 hm.2).1 hold)
  rw [hb] at h
  refine chainLoop_last (T := fun _ => True) (R := EveryElement (ObservablesSay g)) ?_ _ _ _ r k'
    (fun _ _ _ _ _ _ _ _ _ _ => trivial) trivial h
  intro u hu k t r k' _ hst
  have hm := assoc_mem hu
  simp only [cyboxUpdaters, List.mem_cons, Prod.mk.injEq, List.not_mem_nil, or_false] at hm
  rcases hm with ⟨rfl, rfl⟩ | ⟨rfl, rfl⟩
  · rw [← hnext]; exact (C24_step o force k t r k').1 hst
  · rw [← hnext]; exact (C24_step o force k t r k').2 hst

example : (update w0 (cyboxDoc v20 [cyboxDoc v20 []]) none none o0 false 0).isOk = true := by decide +kernel

theorem append_sep_inj : ∀ {a a' x y : List Char}, '.' ∉ a → '.' ∉ a' → a ++ '.' :: x = a' ++ '.' :: y →
    a = a' ∧ x = y
  | [], [], _, _, _, _, h => by simpa using h
  | [], c :: cs, _, _, _, h', h => by
    simp only [List.nil_append, List.cons_append, List.cons.injEq] at h
    exact absurd (by rw [← h.1]; simp) h'
  | c :: cs, [], _, _, h', _, h => by
    simp only [List.nil_append, List.cons_append, List.cons.injEq] at h
    exact absurd (by rw [h.1]; simp) h'
  | c :: cs, c' :: cs', _, _, h1, h2, h => by
    simp only [List.cons_append, List.cons.injEq] at h
    have := append_sep_inj (fun hm => h1 (by simp [hm])) (fun hm => h2 (by simp [hm])) h.2
    exact ⟨by rw [h.1, this.1], this.2⟩

/-- The three version attributes of an element, when they are nonempty and dot-free. -/
def CyboxParts (e : Elem) (a b : String) (c : Option String) : Prop :=
  e.get? (.plain "cybox_major_version") = some a ∧ e.get? (.plain "cybox_minor_version") = some b ∧
  e.get? (.plain "cybox_update_version") = c ∧ a ≠ "" ∧ b ≠ "" ∧ c ≠ some "" ∧
  '.' ∉ a.toList ∧ '.' ∉ b.toList ∧ ∀ x, c = some x → '.' ∉ x.toList

/-- C24, round trip: two elements with well-formed version attributes have the same `get_version`
exactly when the attributes agree; so the version string determines the attributes and vice versa. -/
theorem C24_round_trip (e e' : Elem) (a b a' b' : String) (c c' : Option String) (h : CyboxParts e a b c)
    (h' : CyboxParts e' a' b' c') :
    (∃ v, cyboxGetVersion e = .ok v ∧ cyboxGetVersion e' = .ok v) ↔ (a = a' ∧ b = b' ∧ c = c') := by
  have key : ∀ (e : Elem) (a b : String) (c : Option String), CyboxParts e a b c → cyboxGetVersion e =
      .ok (match c with | none => a ++ "." ++ b | some c => a ++ "." ++ b ++ "." ++ c) := by
    rintro e a b c ⟨h1, h2, h3, h4, h5, h6, _⟩
    cases c with
    | none => simp [cyboxGetVersion, attrMajor, attrMinor, attrUpdate, h1, h2, h3, falsy, h4, h5]
    | some c =>
      have : c ≠ "" := fun h => h6 (by rw [h])
      simp [cyboxGetVersion, attrMajor, attrMinor, attrUpdate, h1, h2, h3, falsy, h4, h5, this]
  rw [key e a b c h, key e' a' b' c' h']
  obtain ⟨_, _, _, _, _, _, da, db, dc⟩ := h
  obtain ⟨_, _, _, _, _, _, da', db', dc'⟩ := h'
  constructor
  · rintro ⟨v, hv, hv'⟩
    rw [← hv'] at hv
    simp only [Except.ok.injEq] at hv
    have hl := congrArg String.toList hv
    cases c with
    | none =>
      cases c' with
      | none =>
        simp only [String.toList_append, List.append_assoc] at hl
        obtain ⟨h1, h2⟩ := append_sep_inj da da' (by simpa using hl)
        exact ⟨String.ext h1, String.ext h2, rfl⟩
      | some c' =>
        simp only [String.toList_append, List.append_assoc] at hl
        obtain ⟨h1, h2⟩ := append_sep_inj da da' (by simpa using hl)
        exact absurd (show '.' ∈ b.toList by rw [h2]; simp) db
    | some c =>
      cases c' with
      | none =>
        simp only [String.toList_append, List.append_assoc] at hl
        obtain ⟨h1, h2⟩ := append_sep_inj da da' (by simpa using hl)
        exact absurd (show '.' ∈ b'.toList by rw [← h2]; simp) db'
      | some c' =>
        simp only [String.toList_append, List.append_assoc] at hl
        obtain ⟨h1, h2⟩ := append_sep_inj da da' (x := b.toList ++ '.' :: c.toList) (y := b'.toList ++ '.' :: c'.toList)
          (by simpa using hl)
        obtain ⟨h3, h4⟩ := append_sep_inj db db' h2
        exact ⟨String.ext h1, String.ext h3, congrArg some (String.ext h4)⟩
  · rintro ⟨rfl, rfl, rfl⟩
    exact ⟨_, rfl, rfl⟩

example : CyboxParts ⟨observablesTag, [], v201, none, none⟩ "2" "0" (some "1") := by
  refine ⟨by decide, by decide, by decide, by decide, by decide, by decide, by decide, by decide, ?_⟩
  rintro x h
  cases h
  decide

end Ramrod
