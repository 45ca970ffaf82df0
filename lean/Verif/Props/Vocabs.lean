import Verif.Lemmas.Types
import Verif.Props.Versions
/-!
# Controlled vocabularies: C19, C20
-/

namespace Ramrod

open Samples

/-! ## Specification vocabulary -/

/-- A vocabulary revision: namespace, outdated type names, new type name, the `vocab_reference` and
`vocab_name` of the revision, and the terms it corrects. -/
structure VocabRow where
  ns : String
  old : List String
  new : String
  reference : String
  name : String
  corrected : List (String × String)

/-- The vocabulary revisions a step brings, under the release it starts from. -/
inductive StepRows (w : World) : Updater → List VocabRow → Prop
  | cybox20 : StepRows w cybox20
    [⟨"http://cybox.mitre.org/default_vocabularies-2", ["EventTypeVocab-1.0"], "EventTypeVocab-1.0.1",
      "http://cybox.mitre.org/XMLSchema/default_vocabularies/2.0.1/cybox_default_vocabularies.xsd#EventTypeVocab-1.0.1",
      "CybOX Default Event Types", [("Anomoly Events", "Anomaly Events")]⟩]
  | cybox201 : StepRows w cybox201
    [⟨"http://cybox.mitre.org/default_vocabularies-2", ["ObjectRelationshipVocab-1.0"], "ObjectRelationshipVocab-1.1",
      "http://cybox.mitre.org/XMLSchema/default_vocabularies/2.1/cybox_default_vocabularies.xsd#ObjectRelationshipVocab-1.1",
      "CybOX Default Object-Object Relationships", []⟩,
     ⟨"http://cybox.mitre.org/default_vocabularies-2", ["ToolTypeVocab-1.0"], "ToolTypeVocab-1.1",
      "http://cybox.mitre.org/XMLSchema/default_vocabularies/2.1/cybox_default_vocabularies.xsd#ToolTypeVocab-1.1",
      "CybOX Default Tool Types", [("A/V", "AV")]⟩,
     ⟨"http://cybox.mitre.org/default_vocabularies-2", ["ActionNameVocab-1.0"], "ActionNameVocab-1.1",
      "http://cybox.mitre.org/XMLSchema/default_vocabularies/2.1/cybox_default_vocabularies.xsd#DefinedActionNameVocab-1.1",
      "CybOX Default Action Names", []⟩]
  | stix10 : StepRows w stix10
    [⟨"http://stix.mitre.org/default_vocabularies-1", ["MotivationVocab-1.0"], "MotivationVocab-1.0.1",
      "http://stix.mitre.org/XMLSchema/default_vocabularies/1.0.1/stix_default_vocabularies.xsd#MotivationVocab-1.0.1",
      "STIX Default Motivation Vocabulary", [("Ideological - Anti-Establisment", "Ideological - Anti-Establishment")]⟩,
     ⟨"http://stix.mitre.org/default_vocabularies-1", ["PlanningAndOperationalSupportVocab-1.0"],
      "PlanningAndOperationalSupportVocab-1.0.1",
      "http://stix.mitre.org/XMLSchema/default_vocabularies/1.0.1/stix_default_vocabularies.xsd#PlanningAndOperationalSupportVocab-1.0.1",
      "STIX Default Planning and Operational Support Vocabulary",
      [("Planning - Open-Source Intelligence (OSINT) Gethering", "Planning - Open-Source Intelligence (OSINT) Gathering"),
       ("Planning ", "Planning")]⟩]
  | stix101 : StepRows w (stix101 w)
    [⟨"http://stix.mitre.org/default_vocabularies-1", ["MotivationVocab-1.0", "MotivationVocab-1.0.1"], "MotivationVocab-1.1",
      "http://stix.mitre.org/XMLSchema/default_vocabularies/1.1.0/stix_default_vocabularies.xsd#MotivationVocab-1.1",
      "STIX Default Motivation Vocabulary", [("Policital", "Political")]⟩,
     ⟨"http://stix.mitre.org/default_vocabularies-1", ["IndicatorTypeVocab-1.0"], "IndicatorTypeVocab-1.1",
      "http://stix.mitre.org/XMLSchema/default_vocabularies/1.1.0/stix_default_vocabularies.xsd#IndicatorTypeVocab-1.1",
      "STIX Default Indicator Type Vocabulary", []⟩]
  | stix11 : StepRows w (stix11 w)
    [⟨"http://stix.mitre.org/default_vocabularies-1", ["AvailabilityLossTypeVocab-1.0"], "AvailabilityLossTypeVocab-1.1.1",
      "http://stix.mitre.org/XMLSchema/default_vocabularies/1.1.1/stix_default_vocabularies.xsd#AvailabilityLossTypeVocab-1.1.1",
      "STIX Default Availability Loss Type Vocabulary", [("Degredation", "Degradation")]⟩]
  | stix111 : StepRows w stix111
    [⟨"http://stix.mitre.org/default_vocabularies-1", ["DiscoveryMethodVocab-1.0"], "DiscoveryMethodVocab-2.0",
      "http://stix.mitre.org/XMLSchema/default_vocabularies/1.2.0/stix_default_vocabularies.xsd#DiscoveryMethodTypeVocab-2.0",
      "STIX Default Discovery Method Vocabulary", [("Fraud Detection", "External - Fraud Detection")]⟩]
  | stix12 : StepRows w stix12 []

/-- A descendant element whose `xsi:type` is `p:` followed by an outdated type name, where `p` is bound to
the vocabulary's namespace at that place. -/
def Outdated (row : VocabRow) (p : String) (c : Ctx) : Prop :=
  c.anc ≠ [] ∧ ∃ ty ∈ row.old, c.TypedAs p ty row.ns

/-- `e'` is `e` brought to the new revision: same prefix, new type name, `vocab_reference` and
`vocab_name` rewritten where present, the text corrected if it is a corrected term; the same attributes in
the same order and nothing else changed. -/
def Rewritten (row : VocabRow) (p : String) (e e' : Elem) : Prop :=
  e'.tag = e.tag ∧ e'.decls = e.decls ∧ e'.tail = e.tail ∧
  e'.text = e.text.map (fun s => (assoc row.corrected s).getD s) ∧
  e'.attrs.map (·.1) = e.attrs.map (·.1) ∧
  ∀ k : QName, e'.get? k =
    if k = ⟨some "http://www.w3.org/2001/XMLSchema-instance", "type"⟩ then some (p ++ ":" ++ row.new)
    else if k = .plain "vocab_reference" then (e.get? k).map (fun _ => row.reference)
    else if k = .plain "vocab_name" then (e.get? k).map (fun _ => row.name)
    else e.get? k

/-! ## Helpers -/

/-- The vocabulary class implements the row; its reference may be unusable (a tuple in the code). -/
def Vocab.Matches (v : Vocab) (row : VocabRow) : Prop :=
  v.ns = row.ns ∧ v.oldTypes = row.old ∧ v.newType = row.new ∧ v.name = row.name ∧ v.terms = row.corrected ∧
  (v.reference = some row.reference ∨ v.reference = none)

theorem set_names {as : Attrs} {k : QName} {v : String} (h : (Attrs.get? as k).isSome = true) :
    (Attrs.set as k v).map (·.1) = as.map (·.1) := by
  induction as with
  | nil => simp [Attrs.get?] at h
  | cons x xs ih =>
    obtain ⟨k', v'⟩ := x
    simp only [Attrs.set]
    split
    · rfl
    · next hne =>
      simp only [Attrs.get?, if_neg hne] at h
      simp [ih h]

theorem rewritten_of_update {v : Vocab} {row : VocabRow} (hm : v.Matches row) {e e' : Elem} {p ty s : String}
    (hs : e.get? tagXsiType = some s) (hq : IsQType s p ty) (h : v.updateNode e = .ok e') :
    Rewritten row p e e' := by
  obtain ⟨h1, h2, h3⟩ := updateNode_keeps h
  refine ⟨h1, h2, h3, ?_⟩
  obtain ⟨m1, m2, m3, m4, m5, m6⟩ := hm
  simp only [Vocab.updateNode, getTypeInfo_ok.2 ⟨s, hs, hq⟩] at h
  split at h
  · cases h
  · next e2 he2 =>
    have x1 : (e.get? tagXsiType).isSome = true := by rw [hs]; rfl
    have e2text : e2.text = e.text := by
      split at he2
      · split at he2
        · simp only [Except.ok.injEq] at he2; rw [← he2]; rfl
        · cases he2
      · simp only [Except.ok.injEq] at he2; rw [← he2]; rfl
    have e2names : e2.attrs.map (·.1) = e.attrs.map (·.1) := by
      have hb : (e.set tagXsiType (p ++ ":" ++ v.newType)).attrs.map (·.1) = e.attrs.map (·.1) := set_names x1
      split at he2
      · next hr =>
        split at he2
        · simp only [Except.ok.injEq] at he2; rw [← he2, ← hb]
          exact set_names hr
        · cases he2
      · simp only [Except.ok.injEq] at he2; rw [← he2, hb]
    have e2get : ∀ k, e2.get? k = if k = tagXsiType then some (p ++ ":" ++ row.new)
        else if k = attrVocabReference then (e.get? k).map (fun _ => row.reference) else e.get? k := by
      intro k
      split at he2
      · next hr =>
        rw [Elem.has_set] at hr
        split at he2
        · next r hr' =>
          have : r = row.reference := by
            rcases m6 with h | h <;> rw [h] at hr' <;> simp at hr'
            exact hr'.symm
          simp only [Except.ok.injEq] at he2
          rw [← he2, Elem.get?_set, Elem.get?_set, m3, this]
          by_cases k1 : k = tagXsiType
          · rw [if_neg (by rw [k1]; decide), if_pos k1.symm, if_pos k1]
          · by_cases k2 : k = attrVocabReference
            · rw [if_pos k2.symm, if_neg k1, if_pos k2]
              rw [Elem.has_eq] at hr
              simp only [k2]
              cases hx : e.get? attrVocabReference with
              | none => rw [hx] at hr; exact absurd hr (by decide)
              | some _ => rfl
            · rw [if_neg (Ne.symm k2), if_neg (Ne.symm k1), if_neg k1, if_neg k2]
        · cases he2
      · next hr =>
        simp only [Except.ok.injEq] at he2
        rw [Elem.has_set] at hr
        rw [← he2, Elem.get?_set, m3]
        by_cases k1 : k = tagXsiType
        · rw [if_pos k1.symm, if_pos k1]
        · rw [if_neg (Ne.symm k1), if_neg k1]
          by_cases k2 : k = attrVocabReference
          · rw [if_pos k2, k2]
            cases hx : e.get? attrVocabReference with
            | none => rfl
            | some _ => rw [Elem.has_eq, hx] at hr; simp at hr
          · rw [if_neg k2]
    -- the name
    have e3 : ∀ e3 : Elem, e3 = (if e2.has attrVocabName = true then e2.set attrVocabName v.name else e2) →
        e3.text = e.text ∧ e3.attrs.map (·.1) = e.attrs.map (·.1) ∧ ∀ k, e3.get? k =
          if k = tagXsiType then some (p ++ ":" ++ row.new)
          else if k = attrVocabReference then (e.get? k).map (fun _ => row.reference)
          else if k = attrVocabName then (e.get? k).map (fun _ => row.name) else e.get? k := by
      intro e3 he3
      by_cases hn : e2.has attrVocabName = true
      · rw [if_pos hn] at he3
        subst he3
        refine ⟨e2text, ?_, fun k => ?_⟩
        · rw [← e2names]; exact set_names hn
        · rw [Elem.get?_set, e2get, m4]
          by_cases k3 : k = attrVocabName
          · rw [if_pos k3.symm, k3, if_neg (by decide), if_neg (by decide), if_pos rfl]
            rw [Elem.has_eq, e2get, if_neg (by decide), if_neg (by decide)] at hn
            cases hx : e.get? attrVocabName with
            | none => rw [hx] at hn; cases hn
            | some _ => rfl
          · rw [if_neg (Ne.symm k3), if_neg k3]
      · rw [if_neg hn] at he3
        subst he3
        refine ⟨e2text, e2names, fun k => ?_⟩
        rw [e2get]
        by_cases k3 : k = attrVocabName
        · rw [k3, if_neg (by decide), if_neg (by decide), if_neg (by decide), if_neg (by decide), if_pos rfl]
          rw [Elem.has_eq, e2get, if_neg (by decide), if_neg (by decide)] at hn
          cases hx : e.get? attrVocabName with
          | none => rfl
          | some _ => rw [hx] at hn; simp at hn
        · rw [if_neg k3]
    obtain ⟨t1, t2, t3⟩ := e3 _ rfl
    rw [m5] at h
    split at h
    · next s hs' =>
      have hs'' := t1.symm.trans hs'
      split at h
      · next new hnew =>
        simp only [Except.ok.injEq] at h
        rw [← h]
        refine ⟨?_, t2, t3⟩
        simp only [hs'', Option.map_some, hnew, Option.getD_some]
      · next hnew =>
        simp only [Except.ok.injEq] at h
        rw [← h]
        refine ⟨?_, t2, t3⟩
        rw [hs', hs'']
        simp only [Option.map_some, hnew, Option.getD_none]
    · next hs' =>
      simp only [Except.ok.injEq] at h
      rw [← h]
      refine ⟨?_, t2, t3⟩
      rw [t1, ← t1, hs']; rfl

theorem outdated_iff_hit {v : Vocab} {row : VocabRow} (hm : v.Matches row) {c : Ctx} :
    v.hit c = true ↔ ∃ p, Outdated row p c := by
  rw [hit_iff]
  obtain ⟨m1, m2, _⟩ := hm
  constructor
  · rintro ⟨ha, p, ty, ht, hty⟩
    exact ⟨p, ha, ty, m2 ▸ hty, m1 ▸ ht⟩
  · rintro ⟨p, ha, ty, hty, ht⟩
    exact ⟨ha, p, ty, m1 ▸ ht, m2 ▸ hty⟩

/-- The classes of a list implement the rows of a list. -/
inductive MatchesAll : List Vocab → List VocabRow → Prop
  | nil : MatchesAll [] []
  | cons {v row vs rows} : v.Matches row → MatchesAll vs rows → MatchesAll (v :: vs) (row :: rows)

theorem stepRows_matches {w : World} {u : Updater} {rows : List VocabRow} (h : StepRows w u rows) :
    MatchesAll u.cls.vocabs rows := by
  cases h with
  | cybox20 => exact .cons ⟨rfl, rfl, rfl, rfl, rfl, Or.inl rfl⟩ .nil
  | cybox201 => exact .cons ⟨rfl, rfl, rfl, rfl, rfl, Or.inr rfl⟩ (.cons ⟨rfl, rfl, rfl, rfl, rfl, Or.inl rfl⟩
      (.cons ⟨rfl, rfl, rfl, rfl, rfl, Or.inl rfl⟩ .nil))
  | stix10 => exact .cons ⟨rfl, rfl, rfl, rfl, rfl, Or.inl rfl⟩ (.cons ⟨rfl, rfl, rfl, rfl, rfl, Or.inr rfl⟩ .nil)
  | stix101 => exact .cons ⟨rfl, rfl, rfl, rfl, rfl, Or.inl rfl⟩ (.cons ⟨rfl, rfl, rfl, rfl, rfl, Or.inl rfl⟩ .nil)
  | stix11 => exact .cons ⟨rfl, rfl, rfl, rfl, rfl, Or.inl rfl⟩ .nil
  | stix111 => exact .cons ⟨rfl, rfl, rfl, rfl, rfl, Or.inl rfl⟩ .nil
  | stix12 => exact .nil

/-- Two rows do not interfere: no shared outdated type, and the new type of one is not outdated for the other. -/
def VocabRow.Apart (r r' : VocabRow) : Prop := r.ns = r'.ns → (∀ ty ∈ r.old, ty ∉ r'.old) ∧ r.new ∉ r'.old

/-- A list of rows that can be applied one after the other. -/
inductive Stable : List VocabRow → Prop
  | nil : Stable []
  | cons {r rs} : ':' ∉ r.new.toList → r.new ∉ r.old → (∀ q ∈ r.corrected, assoc r.corrected q.2 = none) →
      (∀ r' ∈ rs, r.Apart r' ∧ r'.Apart r) → Stable rs → Stable (r :: rs)

theorem no_colon {cs : List Char} (h : ':' ∉ cs) : ':' ∉ (String.ofList cs).toList := by
  rw [String.toList_ofList]; exact h

theorem stepRows_stable {w : World} {u : Updater} {rows : List VocabRow} (h : StepRows w u rows) : Stable rows := by
  cases h with
  | cybox20 => exact .cons (no_colon (by decide)) (by decide) (by decide) (by simp) .nil
  | cybox201 =>
    refine .cons (no_colon (by decide)) (by decide) (by decide) ?_ (.cons (no_colon (by decide)) (by decide) (by decide) ?_
      (.cons (no_colon (by decide)) (by decide) (by decide) (by simp) .nil)) <;>
      simp only [List.mem_cons, List.not_mem_nil, or_false, forall_eq_or_imp, forall_eq, VocabRow.Apart] <;> decide
  | stix10 =>
    refine .cons (no_colon (by decide)) (by decide) (by decide) ?_ (.cons (no_colon (by decide)) (by decide) (by decide) (by simp) .nil)
    simp only [List.mem_cons, List.not_mem_nil, or_false, forall_eq, VocabRow.Apart]; decide
  | stix101 =>
    refine .cons (no_colon (by decide)) (by decide) (by decide) ?_ (.cons (no_colon (by decide)) (by decide) (by decide) (by simp) .nil)
    intro r hr
    rw [List.mem_singleton] at hr
    subst hr
    unfold VocabRow.Apart
    decide
  | stix11 => exact .cons (no_colon (by decide)) (by decide) (by decide) (by simp) .nil
  | stix111 => exact .cons (no_colon (by decide)) (by decide) (by decide) (by simp) .nil
  | stix12 => exact .nil

theorem outdated_congr {row : VocabRow} {p : String} {c c' : Ctx} (h1 : c'.anc = c.anc) (h2 : c'.env = c.env)
    (h3 : c'.e = c.e) : Outdated row p c' ↔ Outdated row p c := by
  unfold Outdated Ctx.TypedAs; rw [h1, h2, h3]

theorem outdated_prefix {row : VocabRow} {p p' : String} {c : Ctx} (h : Outdated row p c) (h' : Outdated row p' c) :
    p = p' := by
  obtain ⟨_, ty, _, ht⟩ := h
  obtain ⟨_, ty', _, ht'⟩ := h'
  exact (typedAs_unique ht ht').1

/-- The type of a rewritten element. -/
theorem rewritten_typed {row : VocabRow} {p : String} {c c' : Ctx} (hcol : ':' ∉ row.new.toList)
    (ho : Outdated row p c) (hr : Rewritten row p c.e c'.e) (henv : c'.env = c.env) :
    c'.TypedAs p row.new row.ns := by
  obtain ⟨_, ty, _, s, hs, hq, hn⟩ := ho
  refine ⟨p ++ ":" ++ row.new, ?_, ⟨rfl, hq.2.1, hcol⟩, by rw [henv]; exact hn⟩
  rw [hr.2.2.2.2.2]; simp

theorem ctx_upd_facts (F : Ctx → Elem) (c : Ctx) : (c.upd F).anc = c.anc ∧ (c.upd F).env = c.env ∧ (c.upd F).e = F c :=
  ⟨rfl, rfl, rfl⟩

theorem updateVocabs_spec : ∀ {vs : List Vocab} {rows : List VocabRow}, MatchesAll vs rows → Stable rows →
    ∀ {t t' : Node}, updateVocabs vs t = .ok t' → ∃ F, Keeps F ∧ t' = t.edit F ∧ ∀ c ∈ t.elems,
      (∀ row ∈ rows, ∀ p, Outdated row p c → Rewritten row p c.e (F c)) ∧
      ((∀ row ∈ rows, ∀ p, ¬ Outdated row p c) → F c = c.e)
  | [], _, .nil, _, t, t', h => by
    simp only [updateVocabs, foldE, Except.ok.injEq] at h
    exact ⟨fun c => c.e, fun _ => ⟨rfl, rfl⟩, by rw [← h]; exact (edit_self (fun _ _ => rfl)).symm,
      fun c _ => ⟨by simp, fun _ => rfl⟩⟩
  | v :: vs, _, .cons (row := row) (rows := rows) hm hms, .cons hcol hnew hcor hap hst, t, t', h => by
    simp only [updateVocabs, foldE] at h
    split at h
    · cases h
    · next t1 h1 =>
      obtain ⟨e1, hw, hu⟩ := vocabUpdate_eq h1
      obtain ⟨G, hG, e2, hspec⟩ := updateVocabs_spec hms hst h
      subst e1
      refine ⟨fun c => G (c.upd v.edit), (keeps_vocab v).comp hG, by rw [e2, edit_edit (keeps_vocab v)], ?_⟩
      intro c hc
      have hc1 : c.upd v.edit ∈ (t.edit v.edit).elems := by
        rw [elems_edit (keeps_vocab v)]; exact List.mem_map_of_mem hc
      obtain ⟨s1, s2⟩ := hspec _ hc1
      by_cases hh : v.hit c = true
      · obtain ⟨p, ho⟩ := (outdated_iff_hit hm).1 hh
        obtain ⟨e', he'⟩ := hu c hc hh
        have hedit : v.edit c = e' := by unfold Vocab.edit; rw [if_pos hh, he']
        have hrew : Rewritten row p c.e (v.edit c) := by
          obtain ⟨_, ty, _, s, hs, hq, _⟩ := ho
          rw [hedit]
          exact rewritten_of_update hm hs hq he'
        have hty := rewritten_typed (c' := c.upd v.edit) hcol ho hrew rfl
        have hG1 : G (c.upd v.edit) = v.edit c := by
          refine s2 (fun row' hr' p' ho' => ?_)
          obtain ⟨_, ty', hm', ht'⟩ := ho'
          obtain ⟨_, e1, e2⟩ := typedAs_unique hty ht'
          exact (((hap row' hr').1) e2).2 (e1 ▸ hm')
        constructor
        · intro row' hr' p' ho'
          rcases List.mem_cons.1 hr' with rfl | hr'
          · rw [outdated_prefix ho' ho]
            simp only [hG1]; exact hrew
          · exfalso
            obtain ⟨_, ty, hm1, ht1⟩ := ho
            obtain ⟨_, ty', hm', ht'⟩ := ho'
            obtain ⟨_, e1, e2⟩ := typedAs_unique ht1 ht'
            exact ((hap row' hr').1 e2).1 ty hm1 (e1 ▸ hm')
        · intro hno
          exact absurd ho (hno row (by simp) p)
      · have hedit : v.edit c = c.e := by unfold Vocab.edit; rw [if_neg hh]
        have hcong : ∀ row p, Outdated row p (c.upd v.edit) ↔ Outdated row p c := fun _ _ =>
          outdated_congr rfl rfl hedit
        have he : (c.upd v.edit).e = c.e := hedit
        constructor
        · intro row' hr' p' ho'
          rcases List.mem_cons.1 hr' with rfl | hr'
          · exact absurd ((outdated_iff_hit hm).2 ⟨p', ho'⟩) hh
          · have := s1 row' hr' p' ((hcong _ _).2 ho')
            rw [he] at this; exact this
        · intro hno
          have := s2 (fun row' hr' p' ho' => hno row' (by simp [hr']) p' ((hcong _ _).1 ho'))
          rw [he] at this; exact this

/-! ## C19 -/

/-- C19, the vocabulary pass of every step: if it succeeds, the new document is the old one with exactly
the outdated elements brought to the new revision and every other element untouched. -/
theorem C19_pass_partial (w : World) (u : Updater) (rows : List VocabRow) (hu : StepRows w u rows) (t t' : Node)
    (h : updateVocabs u.cls.vocabs t = .ok t') :
    ∃ F, t' = t.edit F ∧ ∀ c ∈ t.elems,
      (∀ row ∈ rows, ∀ p, Outdated row p c → Rewritten row p c.e (F c)) ∧
      ((∀ row ∈ rows, ∀ p, ¬ Outdated row p c) → F c = c.e) := by
  obtain ⟨F, _, h1, h2⟩ := updateVocabs_spec (stepRows_matches hu) (stepRows_stable hu) h
  exact ⟨F, h1, h2⟩

example : (updateVocabs stix111.cls.vocabs doc111).isOk = true ∧ updateVocabs stix111.cls.vocabs doc111 ≠ .ok doc111 := by
  decide +kernel

/-- Every `xsi:type` below the root is a qualified name whose prefix is bound. -/
def WellTyped (t : Node) : Prop :=
  ∀ c ∈ t.elems, c.anc ≠ [] → c.e.get? ⟨some "http://www.w3.org/2001/XMLSchema-instance", "type"⟩ ≠ none →
    ∃ p ty ns, c.TypedAs p ty ns

theorem outdated_hit_update {v : Vocab} {row : VocabRow} {c : Ctx} {p : String}
    (ho : Outdated row p c) (hr : v.reference = none → c.e.get? (.plain "vocab_reference") = none) :
    ∃ e', v.updateNode c.e = .ok e' := by
  obtain ⟨_, ty, _, s, hs, hq, _⟩ := ho
  simp only [Vocab.updateNode, getTypeInfo_ok.2 ⟨s, hs, hq⟩]
  split
  · next x hx =>
    exfalso
    split at hx
    · next hh =>
      split at hx
      · cases hx
      · next hv =>
        rw [Elem.has_set, Elem.has_eq, show c.e.get? attrVocabReference = none from hr hv] at hh
        exact absurd hh (by decide)
    · cases hx
  · split
    · split <;> exact ⟨_, rfl⟩
    · exact ⟨_, rfl⟩

theorem foldE_modify_ok {g : Ctx → Except Err Elem} : ∀ (cs : List Ctx) (t : Node), (∀ c ∈ cs, ∃ e', g c = .ok e') →
    ∃ t', foldE (fun t c => match g c with | .error x => .error x | .ok e' => .ok (t.modifyAt c.pos (fun _ => e'))) t cs = .ok t'
  | [], t, _ => ⟨t, rfl⟩
  | c :: cs, t, h => by
    obtain ⟨e', he⟩ := h c (by simp)
    simp only [foldE, he]
    exact foldE_modify_ok cs _ (fun d hd => h d (by simp [hd]))

theorem vocabUpdate_total {v : Vocab} {row : VocabRow} (hm : v.Matches row) {t : Node} (ht : WellTyped t)
    (hr : v.reference = none → ∀ c ∈ t.elems, ∀ p, Outdated row p c → c.e.get? (.plain "vocab_reference") = none) :
    ∃ t', v.update t = .ok t' := by
  unfold Vocab.update
  have hok : ∀ c ∈ getTypedNodes t, ∃ b, v.wanted c = .ok b := by
    intro c hc
    obtain ⟨h1, h2⟩ := List.mem_filter.1 hc
    obtain ⟨h3, h4⟩ := mem_descs_iff.1 h1
    rw [Elem.has_eq] at h2
    obtain ⟨p, ty, ns, h⟩ := ht c h3 h4 (by
      intro e
      rw [show c.e.get? tagXsiType = none from e] at h2; cases h2)
    exact ⟨_, wanted_typed h⟩
  obtain ⟨found, hf⟩ : ∃ f, v.find (getTypedNodes t) = .ok f := by
    unfold Vocab.find; exact filterE_ok hok
  rw [hf]
  refine foldE_modify_ok (g := fun c => v.updateNode c.e) found t (fun c hc => ?_)
  rw [(filterE_filter hf).2] at hc
  obtain ⟨h1, h2⟩ := List.mem_filter.1 hc
  obtain ⟨h1', h1''⟩ := List.mem_filter.1 h1
  obtain ⟨h3, h4⟩ := mem_descs_iff.1 h1'
  have hh : v.hit c = true := by
    unfold Vocab.hit
    cases hw : v.wanted c with
    | error x => rw [hw] at h2; cases h2
    | ok b => rw [hw] at h2; simp only at h2; simp [h4, h1'', h2]
  obtain ⟨p, ho⟩ := (outdated_iff_hit hm).1 hh
  exact outdated_hit_update ho (fun hn => hr hn c h3 p ho)

theorem stable_new : ∀ {rows : List VocabRow}, Stable rows → ∀ r ∈ rows, ':' ∉ r.new.toList ∧
    (∀ q ∈ r.corrected, assoc r.corrected q.2 = none) ∧ ∀ r' ∈ rows, r.ns = r'.ns → r.new ∉ r'.old
  | _, .cons (r := a) (rs := rs) h1 h2 h3 h4 h5, r, hr0 => by
    rcases List.mem_cons.1 hr0 with e | hr
    · subst e
      refine ⟨h1, h3, fun r' hr' hns => ?_⟩
      rcases List.mem_cons.1 hr' with e | hr'
      · subst e; exact h2
      · exact ((h4 r' hr').1 hns).2
    · obtain ⟨i1, i2, i3⟩ := stable_new h5 r hr
      refine ⟨i1, i2, fun r' hr' hns => ?_⟩
      rcases List.mem_cons.1 hr' with e | hr'
      · subst e; exact ((h4 r hr).2 hns).2
      · exact i3 r' hr' hns

theorem typedAs_congr {p ty ns : String} {c c' : Ctx} (h2 : c'.env = c.env) (h3 : c'.e.get? tagXsiType = c.e.get? tagXsiType) :
    c'.TypedAs p ty ns ↔ c.TypedAs p ty ns := by
  unfold Ctx.TypedAs
  rw [h2]
  constructor
  · rintro ⟨v, hv, h⟩; exact ⟨v, h3.symm.trans hv, h⟩
  · rintro ⟨v, hv, h⟩; exact ⟨v, h3.trans hv, h⟩

theorem vocab_wellTyped {v : Vocab} {row : VocabRow} (hm : v.Matches row) (hcol : ':' ∉ row.new.toList) {t t' : Node}
    (h : v.update t = .ok t') (ht : WellTyped t) : WellTyped t' := by
  obtain ⟨e1, _, hu⟩ := vocabUpdate_eq h
  subst e1
  intro c' hc' ha hx
  rw [elems_edit (keeps_vocab v)] at hc'
  obtain ⟨c, hc, rfl⟩ := List.mem_map.1 hc'
  by_cases hh : v.hit c = true
  · obtain ⟨p, ho⟩ := (outdated_iff_hit hm).1 hh
    obtain ⟨e', he'⟩ := hu c hc hh
    have hedit : v.edit c = e' := by unfold Vocab.edit; rw [if_pos hh, he']
    have ho' := ho
    obtain ⟨_, ty, _, s, hs, hq, _⟩ := ho'
    refine ⟨p, row.new, row.ns, rewritten_typed (c' := c.upd v.edit) hcol ho ?_ rfl⟩
    show Rewritten row p c.e (v.edit c)
    rw [hedit]; exact rewritten_of_update hm hs hq he'
  · have hedit : (c.upd v.edit).e = c.e := by
      show v.edit c = c.e
      unfold Vocab.edit; rw [if_neg hh]
    obtain ⟨p, ty, ns, hty⟩ := ht c hc ha (by rw [← hedit]; exact hx)
    exact ⟨p, ty, ns, (typedAs_congr (c' := c.upd v.edit) (c := c) rfl (by rw [hedit])).2 hty⟩

/-- Outdated elements for the later rows are the ones that were outdated before. -/
theorem outdated_back {v : Vocab} {row : VocabRow} (hm : v.Matches row) (hcol : ':' ∉ row.new.toList) {t t' : Node}
    (h : v.update t = .ok t') {r' : VocabRow} (hap : row.Apart r') {c' : Ctx} (hc' : c' ∈ t'.elems) {p : String}
    (ho' : Outdated r' p c') : ∃ c ∈ t.elems, c'.e = c.e ∧ Outdated r' p c := by
  obtain ⟨e1, _, hu⟩ := vocabUpdate_eq h
  subst e1
  rw [elems_edit (keeps_vocab v)] at hc'
  obtain ⟨c, hc, rfl⟩ := List.mem_map.1 hc'
  by_cases hh : v.hit c = true
  · exfalso
    obtain ⟨q, ho⟩ := (outdated_iff_hit hm).1 hh
    obtain ⟨e', he'⟩ := hu c hc hh
    have hedit : v.edit c = e' := by unfold Vocab.edit; rw [if_pos hh, he']
    have ho2 := ho
    obtain ⟨_, ty, _, s, hs, hq, _⟩ := ho2
    have hty := rewritten_typed (c' := c.upd v.edit) hcol ho (by
      show Rewritten row q c.e (v.edit c)
      rw [hedit]; exact rewritten_of_update hm hs hq he') rfl
    obtain ⟨_, ty', hm', ht'⟩ := ho'
    obtain ⟨_, e1, e2⟩ := typedAs_unique hty ht'
    exact (hap e2).2 (e1 ▸ hm')
  · have hedit : (c.upd v.edit).e = c.e := by
      show v.edit c = c.e
      unfold Vocab.edit; rw [if_neg hh]
    exact ⟨c, hc, hedit, (outdated_congr (c' := c.upd v.edit) (c := c) rfl rfl hedit).1 ho'⟩

theorem updateVocabs_total : ∀ {vs : List Vocab} {rows : List VocabRow}, MatchesAll vs rows → Stable rows →
    ∀ {t : Node}, WellTyped t →
    (∀ v ∈ vs, v.reference = none → ∀ row ∈ rows, v.Matches row → ∀ c ∈ t.elems, ∀ p, Outdated row p c →
      c.e.get? (.plain "vocab_reference") = none) →
    ∃ t', updateVocabs vs t = .ok t'
  | [], _, .nil, _, t, _, _ => ⟨t, rfl⟩
  | v :: vs, _, .cons (row := row) (rows := rows) hm hms, .cons hcol hnew hcor hap hst, t, ht, hr => by
    obtain ⟨t1, h1⟩ := vocabUpdate_total hm ht (fun hn c hc p ho => hr v (by simp) hn row (by simp) hm c hc p ho)
    simp only [updateVocabs, foldE, h1]
    refine updateVocabs_total hms hst (vocab_wellTyped hm hcol h1 ht) ?_
    intro v' hv' hn row' hr' hm' c' hc' p ho'
    obtain ⟨c, hc, he, ho⟩ := outdated_back hm hcol h1 (hap row' hr').1 hc' ho'
    rw [he]
    exact hr v' (by simp [hv']) hn row' (by simp [hr']) hm' c hc p ho

/-- The two revisions whose `vocab_reference` is a one-element tuple in the code. -/
def tupleReference : List String := ["PlanningAndOperationalSupportVocab-1.0.1", "ObjectRelationshipVocab-1.1"]

/-- C19, success: the pass succeeds on every document whose `xsi:type` values are bound qualified names,
unless an outdated value of one of the two broken vocabularies has a `vocab_reference`. -/
theorem C19_succeeds_partial (w : World) (u : Updater) (rows : List VocabRow) (hu : StepRows w u rows) (t : Node)
    (ht : WellTyped t)
    (hr : ∀ row ∈ rows, row.new ∈ tupleReference → ∀ c ∈ t.elems, ∀ p, Outdated row p c →
      c.e.get? (.plain "vocab_reference") = none) :
    ∃ t', updateVocabs u.cls.vocabs t = .ok t' := by
  refine updateVocabs_total (stepRows_matches hu) (stepRows_stable hu) ht ?_
  intro v hv hn row hrow hm c hc p ho
  refine hr row hrow ?_ c hc p ho
  rw [← hm.2.2.1]
  cases hu <;> simp only [cybox20, cybox201, stix10, stix101, stix11, stix111, stix12, cybox20Cls, cybox201Cls,
      stix10Cls, stix101Cls, stix11Cls, stix111Cls, stix12Cls, List.mem_cons, List.not_mem_nil, or_false] at hv
  · subst hv; cases hn
  · rcases hv with rfl | rfl | rfl
    · decide
    · cases hn
    · cases hn
  · rcases hv with rfl | rfl
    · cases hn
    · decide
  · rcases hv with rfl | rfl <;> cases hn
  · subst hv; cases hn
  · subst hv; cases hn

/-- An outdated planning value with a reference, and an outdated object relationship with a reference. -/
def docPlanning : Node :=
  stixDoc "1.0" [el nsStix "X" [xsiType "stixVocabs:PlanningAndOperationalSupportVocab-1.0", at_ "vocab_reference" "r"] []]
def docRelationship : Node :=
  cyboxDoc v201 [el nsCyboxCore "Relationship" [xsiType "cyboxVocabs:ObjectRelationshipVocab-1.0", at_ "vocab_reference" "r"] []]

/-- C19 fails for the two vocabularies whose reference is a tuple: the whole update raises `TypeError`, even when
forced. -/
theorem C19_tuple_reference_fails (force : Bool) :
    stepUpdate stix10 o0 force 0 docPlanning = .error .typeError ∧
    stepUpdate cybox201 o0 force 0 docRelationship = .error .typeError := by
  cases force <;> decide +kernel

/-! ## C20 -/

theorem updateVocabs_clears {vs : List Vocab} {rows : List VocabRow} (hms : MatchesAll vs rows) (hst : Stable rows)
    {t t' : Node} (h : updateVocabs vs t = .ok t') : ∀ c' ∈ t'.elems, ∀ row ∈ rows, ∀ p, ¬ Outdated row p c' := by
  obtain ⟨F, hF, rfl, hspec⟩ := updateVocabs_spec hms hst h
  intro c' hc' row hrow p ho'
  rw [elems_edit hF] at hc'
  obtain ⟨c, hc, rfl⟩ := List.mem_map.1 hc'
  obtain ⟨s1, s2⟩ := hspec c hc
  by_cases hh : ∃ r ∈ rows, ∃ q, Outdated r q c
  · obtain ⟨r, hr, q, ho⟩ := hh
    have hty := rewritten_typed (c' := c.upd F) (stable_new hst r hr).1 ho (s1 r hr q ho) rfl
    obtain ⟨_, ty', hm', ht'⟩ := ho'
    obtain ⟨_, e1, e2⟩ := typedAs_unique hty ht'
    exact (stable_new hst r hr).2.2 row hrow e2 (e1 ▸ hm')
  · have : F c = c.e := s2 (fun r hr q ho => hh ⟨r, hr, q, ho⟩)
    exact hh ⟨row, hrow, p, (outdated_congr (c' := c.upd F) (c := c) rfl rfl this).1 ho'⟩

theorem vocabs_idle : ∀ {vs : List Vocab} {rows : List VocabRow}, MatchesAll vs rows → ∀ {t : Node},
    (∀ c ∈ t.elems, ∀ row ∈ rows, ∀ p, ¬ Outdated row p c) → (vs ≠ [] → WellTyped t) → updateVocabs vs t = .ok t
  | [], _, .nil, t, _, _ => rfl
  | v :: vs, _, .cons (row := row) (rows := rows) hm hms, t, hno, ht => by
    obtain ⟨t1, h1⟩ := vocabUpdate_total hm (ht (by simp)) (fun _ c hc p ho => absurd ho (hno c hc row (by simp) p))
    have e1 : t1 = t := by
      rw [(vocabUpdate_eq h1).1]
      refine edit_self (fun c hc => ?_)
      unfold Vocab.edit
      rw [if_neg]
      intro hh
      obtain ⟨p, ho⟩ := (outdated_iff_hit hm).1 hh
      exact hno c hc row (by simp) p ho
    subst e1
    simp only [updateVocabs, foldE, h1]
    exact vocabs_idle hms (fun c hc r hr => hno c hc r (by simp [hr])) (fun _ => ht (by simp))

theorem updateVocabs_wellTyped : ∀ {vs : List Vocab} {rows : List VocabRow}, MatchesAll vs rows → Stable rows →
    ∀ {t t' : Node}, updateVocabs vs t = .ok t' → vs ≠ [] → WellTyped t'
  | [], _, .nil, _, t, t', h, hne => absurd rfl hne
  | v :: vs, _, .cons (row := row) (rows := rows) hm hms, .cons hcol hnew hcor hap hst, t, t', h, _ => by
    simp only [updateVocabs, foldE] at h
    split at h
    · cases h
    · next t1 h1 =>
      have ht : WellTyped t := by
        obtain ⟨_, hw, _⟩ := vocabUpdate_eq h1
        intro c hc ha hx
        obtain ⟨b, hb⟩ := hw c (List.mem_filter.2 ⟨mem_descs_iff.2 ⟨hc, ha⟩, by
          rw [Elem.has_eq]
          cases hh : c.e.get? tagXsiType with
          | none => exact absurd hh hx
          | some _ => rfl⟩)
        obtain ⟨p, ty, ns, hty, _⟩ := wanted_ok hb
        exact ⟨p, ty, ns, hty⟩
      have ht1 := vocab_wellTyped hm hcol h1 ht
      cases hvs : vs with
      | nil =>
        subst hvs
        cases hms
        simp only [foldE, Except.ok.injEq] at h
        rw [← h]; exact ht1
      | cons v' vs' => exact updateVocabs_wellTyped hms hst h (by rw [hvs]; simp)

/-- C20, the pass of every step: afterwards no descendant carries an outdated type, running the pass again
changes nothing, and the text of an element that was outdated is not one of the misspelt terms. -/
theorem C20_pass (w : World) (u : Updater) (rows : List VocabRow) (hu : StepRows w u rows) (t t' : Node)
    (h : updateVocabs u.cls.vocabs t = .ok t') :
    (∀ c ∈ t'.elems, ∀ row ∈ rows, ∀ p, ¬ Outdated row p c) ∧
    updateVocabs u.cls.vocabs t' = .ok t' ∧
    ∃ F, t' = t.edit F ∧ ∀ c ∈ t.elems, ∀ row ∈ rows, ∀ p, Outdated row p c →
      ∀ q ∈ row.corrected, (F c).text ≠ some q.1 := by
  have hm := stepRows_matches hu
  have hs := stepRows_stable hu
  have h1 := updateVocabs_clears hm hs h
  refine ⟨h1, vocabs_idle hm h1 (updateVocabs_wellTyped hm hs h), ?_⟩
  obtain ⟨F, hF, e, hspec⟩ := updateVocabs_spec hm hs h
  refine ⟨F, e, fun c hc row hrow p ho q hq htext => ?_⟩
  have hr := (hspec c hc).1 row hrow p ho
  rw [hr.2.2.2.1] at htext
  cases hx : c.e.text with
  | none => rw [hx] at htext; cases htext
  | some s =>
    rw [hx] at htext
    simp only [Option.map_some, Option.some.injEq] at htext
    have hkey : assoc row.corrected q.1 ≠ none := by
      have : ∀ (l : List (String × String)), q ∈ l → assoc l q.1 ≠ none := by
        intro l
        induction l with
        | nil => simp
        | cons x xs ih =>
          intro hm
          obtain ⟨k, b⟩ := x
          simp only [assoc]
          split
          · simp
          · next hne =>
            rcases List.mem_cons.1 hm with rfl | hm
            · exact absurd rfl hne
            · exact ih hm
      exact this _ hq
    cases ha : assoc row.corrected s with
    | none =>
      rw [ha, Option.getD_none] at htext
      rw [← htext, ha] at hkey
      exact hkey rfl
    | some b =>
      rw [ha, Option.getD_some] at htext
      have hb := (stable_new hs row hrow).2.1 (s, b) (assoc_mem ha)
      rw [htext] at hb
      exact hkey hb

theorem cybox201_outdated {o : Options} (hv : o.updateVocabularies = true) {m : List (String × String)} {sel : List XAlt}
    {t t' : Node} (h : cybox201Update (cybox201Cls m sel) o t = .ok t') {w : World} {rows : List VocabRow}
    (hu : StepRows w cybox201 rows) : ∀ c ∈ t'.elems, ∀ row ∈ rows, ∀ p, ¬ Outdated row p c := by
  simp only [cybox201Update, hv, if_true] at h
  split at h
  · cases h
  · split at h
    · cases h
    · next t2 h2 =>
      intro c' hc' row hr p ho
      obtain ⟨c, hc, a1, a2, a3⟩ := mem_optionalsIf h c' hc'
      exact updateVocabs_clears (stepRows_matches hu) (stepRows_stable hu) h2 c hc row hr p
        ((outdated_congr a3 a2 a1).1 ho)

/-- C20, steps: after a successful step (forced or not) with vocabularies on, no descendant carries an outdated
type of the step's vocabularies. -/
theorem C20_step (w : World) (u : Updater) (rows : List VocabRow) (hu : StepRows w u rows) (o : Options)
    (hv : o.updateVocabularies = true) (force : Bool) (k k' : Nat) (t : Node) (r : Result)
    (h : stepUpdate u o force k t = .ok (r, k')) :
    ∀ c ∈ r.doc.elems, ∀ row ∈ rows, ∀ p, ¬ Outdated row p c := by
  have hm := stepRows_matches hu
  have hs := stepRows_stable hu
  cases hu with
  | cybox20 =>
    obtain ⟨t1, _, hu⟩ := step_update (w := w) .cybox20 h
    simp only [cybox20, cybox20Update, hv, if_true] at hu
    exact updateVocabs_clears hm hs hu
  | cybox201 =>
    obtain ⟨t1, _, hu⟩ := step_update (w := w) .cybox201 h
    exact cybox201_outdated hv hu (w := w) .cybox201
  | stix10 =>
    obtain ⟨t1, _, hu⟩ := step_update (w := w) .stix10 h
    simp only [stix10, stix10Update, hv, if_true] at hu
    split at hu
    · cases hu
    · exact updateVocabs_clears hm hs hu
  | stix101 =>
    obtain ⟨t1, _, hu⟩ := step_update (w := w) .stix101 h
    simp only [stix101, stix101Update, hv, if_true] at hu
    split at hu
    · cases hu
    · split at hu
      · cases hu
      · split at hu
        · cases hu
        · next t2 h2 =>
          intro c' hc' row hr p ho
          obtain ⟨c, hc, a1, a2, a3⟩ := mem_optionalsIf hu c' hc'
          exact updateVocabs_clears hm hs h2 c hc row hr p ((outdated_congr a3 a2 a1).1 ho)
  | stix11 =>
    obtain ⟨t1, _, hu⟩ := step_update (w := w) .stix11 h
    simp only [stix11, stix11Update, hv, if_true] at hu
    split at hu
    · cases hu
    · split at hu
      · cases hu
      · next t2 h2 =>
        intro c' hc' row hr p ho
        obtain ⟨c, hc, a1, a2, a3⟩ := mem_optionalsIf hu c' hc'
        exact updateVocabs_clears hm hs h2 c hc row hr p ((outdated_congr a3 a2 a1).1 ho)
  | stix111 =>
    obtain ⟨t1, _, hu⟩ := step_update (w := w) .stix111 h
    simp only [stix111, stix111Update, hv, if_true] at hu
    exact updateVocabs_clears hm hs hu
  | stix12 => intro c _ row hr; cases hr

example : ∃ r, stepUpdate stix111 o0 false 0 doc111 = .ok r ∧ r.1.doc ≠ doc111 := ok_of_eval (by decide +kernel)

/-- An edit that keeps `xsi:type` keeps the outdated elements. -/
theorem outdated_edit {F : Ctx → Elem} (hF : Keeps F) (hx : ∀ c, (F c).get? tagXsiType = c.e.get? tagXsiType)
    {t : Node} {row : VocabRow} {p : String} {c' : Ctx} (hc : c' ∈ (t.edit F).elems) (ho : Outdated row p c') :
    ∃ c ∈ t.elems, Outdated row p c := by
  rw [elems_edit hF] at hc
  obtain ⟨c, hc0, rfl⟩ := List.mem_map.1 hc
  obtain ⟨h1, ty, h2, h3⟩ := ho
  exact ⟨c, hc0, h1, ty, h2, (typedAs_congr (c' := c.upd F) (c := c) rfl (hx c)).1 h3⟩

theorem schemaloc_xsi (u : Cls) (c : Ctx) : (schemalocEdit u c).get? tagXsiType = c.e.get? tagXsiType := by
  unfold schemalocEdit
  split
  · exact updateSchemalocsElem_get? u c.e (by decide)
  · rfl

theorem version_xsi {m : List (String × String)} {alts : List XAlt} {g : Elem → Elem}
    (hg : ∀ e, (g e).get? tagXsiType = e.get? tagXsiType) (c : Ctx) :
    (versionEdit m alts g c).get? tagXsiType = c.e.get? tagXsiType := by
  unfold versionEdit
  split
  · exact hg _
  · rfl

theorem setStixVersion_xsi (i v : String) (e : Elem) : (setStixVersion i v e).get? tagXsiType = e.get? tagXsiType := by
  unfold setStixVersion
  rw [Elem.get?_set, if_neg (by decide)]

/-- Rows of different namespaces do not touch each other. -/
theorem updateVocabs_foreign {vs : List Vocab} {rows : List VocabRow} (hms : MatchesAll vs rows) (hst : Stable rows)
    {t t' : Node} (h : updateVocabs vs t = .ok t') {row : VocabRow} (hne : ∀ r ∈ rows, r.ns ≠ row.ns)
    {c' : Ctx} (hc' : c' ∈ t'.elems) {p : String} (ho' : Outdated row p c') : ∃ c ∈ t.elems, Outdated row p c := by
  obtain ⟨F, hF, rfl, hspec⟩ := updateVocabs_spec hms hst h
  rw [elems_edit hF] at hc'
  obtain ⟨c, hc, rfl⟩ := List.mem_map.1 hc'
  obtain ⟨s1, s2⟩ := hspec c hc
  by_cases hh : ∃ r ∈ rows, ∃ q, Outdated r q c
  · exfalso
    obtain ⟨r, hr, q, ho⟩ := hh
    have hty := rewritten_typed (c' := c.upd F) (stable_new hst r hr).1 ho (s1 r hr q ho) rfl
    obtain ⟨_, ty', hm', ht'⟩ := ho'
    exact hne r hr (typedAs_unique hty ht').2.2
  · have : F c = c.e := s2 (fun r hr q ho => hh ⟨r, hr, q, ho⟩)
    exact ⟨c, hc, (outdated_congr (c' := c.upd F) (c := c) rfl rfl this).1 ho'⟩

theorem cybox20_rows {w : World} {u : Updater} {rows : List VocabRow} (hu : StepRows w u rows)
    (hv : u.cls.version = "2.0") : ∀ row ∈ rows, row.ns = cyboxVocabNs := by
  cases hu with
  | cybox20 => intro row hr; rw [List.mem_singleton] at hr; rw [hr]; rfl
  | cybox201 => exact absurd hv (by decide)
  | stix10 => exact absurd hv (by decide)
  | stix101 => exact absurd (show "1.0.1" = "2.0" from hv) (by decide)
  | stix11 => exact absurd (show "1.1" = "2.0" from hv) (by decide)
  | stix111 => exact absurd hv (by decide)
  | stix12 => exact absurd hv (by decide)

/-- C20, CybOX content of a 1.0 package: the outdated types of the embedded CybOX 2.0 step are gone too. -/
theorem C20_embedded (w : World) (rows : List VocabRow) (hu : StepRows w cybox20 rows) (o : Options)
    (hv : o.updateVocabularies = true) (force : Bool) (k k' : Nat) (t : Node) (r : Result)
    (h : stepUpdate stix10 o force k t = .ok (r, k')) :
    ∀ c ∈ r.doc.elems, ∀ row ∈ rows, ∀ p, ¬ Outdated row p c := by
  obtain ⟨t1, _, hup⟩ := step_update (w := w) .stix10 h
  simp only [stix10, stix10Update, hv, if_true] at hup
  split at hup
  · cases hup
  · next t2 h2 =>
    simp only [cybox20Update, hv, if_true] at h2
    have hclear := updateVocabs_clears (stepRows_matches hu) (stepRows_stable hu) (t' := t2) h2
    intro c' hc' row hr p ho
    have hns : row.ns = cyboxVocabNs := cybox20_rows hu rfl row hr
    obtain ⟨c1, hc1, ho1⟩ := updateVocabs_foreign (stepRows_matches (w := w) .stix10) (stepRows_stable (w := w) .stix10)
      hup (row := row) (by
        intro r' hr'
        rw [hns]
        simp only [List.mem_cons, List.not_mem_nil, or_false] at hr'
        rcases hr' with rfl | rfl <;> decide) hc' ho
    rw [stixVersions_eq] at hc1
    obtain ⟨c2, hc2, ho2⟩ := outdated_edit (keeps_version (setStixVersion_keeps _ _)) (version_xsi (setStixVersion_xsi _ _)) hc1 ho1
    rw [updateSchemalocs_eq] at hc2
    obtain ⟨c3, hc3, ho3⟩ := outdated_edit (keeps_schemaloc _) (schemaloc_xsi _) hc2 ho2
    rw [updateNamespaces_none rfl] at hc3
    exact hclear c3 hc3 row hr p ho3

example : (updateVocabs stix111.cls.vocabs doc111).isOk = true ∧ updateVocabs stix111.cls.vocabs doc111 ≠ .ok doc111 := by
  decide +kernel

/-- A 1.0 package with an outdated CybOX event type. -/
def docEvent : Node :=
  stixDoc "1.0" [el nsCyboxCore "Event" [] [el nsCyboxCore "Type" [xsiType "cyboxVocabs:EventTypeVocab-1.0"] []
    (some "Anomoly Events")]]

example : ∃ r, stepUpdate stix10 o0 false 0 docEvent = .ok r ∧
    r.1.doc.elems.map (·.e.text) = [none, none, some "Anomaly Events"] := ok_of_eval (by decide +kernel)

end Ramrod
