import Verif.Lemmas.Nested
import Verif.Props.Fields
/-!
# Fields translated by the STIX 1.0.1 and 1.1 steps: C31, C32, C33 (and C29, C30 inside STIX packages)
-/

namespace Ramrod

open Samples

/-! ## Statement: the 1.0.1 step -/

/-- The CybOX part of a step, with the mailslot handles replaced by nodes as told by `Q`. -/
def CyboxFields (Q : Ctx → Node → Prop) (o : Options) (t t' : Node) : Prop :=
  ∃ a b c d e f, Node.Rel PrepElem t a ∧ Replaced (Header "DNT") StringOf a b ∧ Replaced (Header "Vary") StringOf b c ∧
    Replaced (Header "Refresh") RefreshOf c d ∧ Respelt d e ∧ Replaced TwoLevel Q e f ∧ Finished o (Named optional21) f t'

/-- The element is the same, apart from the schema locations and the version. -/
def StixTouched (e e' : Elem) : Prop :=
  SameData [⟨some "http://www.w3.org/2001/XMLSchema-instance", "schemaLocation"⟩, ⟨none, "version"⟩] e e' ∧ e'.text = e.text

/-- An element in a parent below the root, with the given names. -/
def InParent (p q : QName) (c : Ctx) : Prop := c.e.tag = q ∧ ∃ r rs, c.anc = p :: r :: rs

/-- The element around the exploit targets of a TTP. -/
def exploitTargets : QName := ⟨some "http://stix.mitre.org/TTP-1", "Exploit_Targets"⟩
/-- An exploit target. -/
def exploitTarget : QName := ⟨some "http://stix.mitre.org/common-1", "Exploit_Target"⟩
/-- The list of contributors. -/
def contributors : QName := ⟨some "http://stix.mitre.org/common-1", "Contributors"⟩

/-- `n` is a new `ttp:Exploit_Target` with `c` in it. -/
def WrappedTarget (c : Ctx) (n : Node) : Prop :=
  n = .elem ⟨⟨some "http://stix.mitre.org/TTP-1", "Exploit_Target"⟩, [], [], none, none⟩ [.elem c.e c.kids]

/-- A contributor as the identity of a source. -/
def asSource : Node → Node
  | .elem e ks => .elem ⟨⟨some "http://stix.mitre.org/common-1", "Source"⟩, [], [], none, none⟩
      [.elem { e with tag := ⟨some "http://stix.mitre.org/common-1", "Identity"⟩ } ks]
  | .other c t => .other c t

/-- `n` lists the contributors in `c`, in their order, as identities of sources. -/
def SourcesOf (c : Ctx) (n : Node) : Prop :=
  (∀ k ∈ c.kids, ∃ e ks, k = .elem e ks) ∧
  n = .elem ⟨⟨some "http://stix.mitre.org/common-1", "Contributing_Sources"⟩, [], [], none, none⟩ (c.kids.map asSource)

/-- The stages of the STIX 1.0.1 step. -/
def Stix101Fields (Q : Ctx → Node → Prop) (o : Options) (t t' : Node) : Prop :=
  ∃ a b c d, CyboxFields Q o t a ∧ Node.Rel StixTouched a b ∧
    Replaced (fun c => c.anc ≠ [] ∧ c.e.tag = contributors) SourcesOf b c ∧
    Replaced (InParent exploitTargets exploitTarget) WrappedTarget c d ∧ Finished o (Named optional11) d t'

/-- No element named `y` is inside an element named `x`. -/
def NoneInside (x y : QName) (t : Node) : Prop :=
  ∀ c ∈ t.elems, c.e.tag = x → Node.Alls (fun e => e.tag ≠ y) c.kids

/-! ## Statement: the 1.1 step -/

/-- Elements whose `stixCommon:Source` was a string. -/
def stringHolders : List QName :=
  [ ⟨some "http://stix.mitre.org/Campaign-1", "Confidence"⟩,
    ⟨some "http://stix.mitre.org/CourseOfAction-1", "Applicability_Confidence"⟩,
    ⟨some "http://stix.mitre.org/Incident-1", "Confidence"⟩,
    ⟨some "http://stix.mitre.org/Indicator-2", "Confidence"⟩,
    ⟨some "http://stix.mitre.org/common-1", "Confidence_Assertion"⟩,
    ⟨some "http://stix.mitre.org/common-1", "Confidence"⟩,
    ⟨some "http://stix.mitre.org/ThreatActor-1", "Confidence"⟩,
    ⟨some "http://stix.mitre.org/Campaign-1", "Intended_Effect"⟩,
    ⟨some "http://stix.mitre.org/CourseOfAction-1", "Cost"⟩,
    ⟨some "http://stix.mitre.org/CourseOfAction-1", "Efficacy"⟩,
    ⟨some "http://stix.mitre.org/Incident-1", "Intended_Effect"⟩,
    ⟨some "http://stix.mitre.org/Indicator-2", "Likely_Impact"⟩,
    ⟨some "http://stix.mitre.org/Indicator-2", "Efficacy"⟩,
    ⟨some "http://stix.mitre.org/ThreatActor-1", "Type"⟩,
    ⟨some "http://stix.mitre.org/ThreatActor-1", "Motivation"⟩,
    ⟨some "http://stix.mitre.org/ThreatActor-1", "Sophistication"⟩,
    ⟨some "http://stix.mitre.org/ThreatActor-1", "Intended_Effect"⟩,
    ⟨some "http://stix.mitre.org/ThreatActor-1", "Planning_And_Operational_Support"⟩,
    ⟨some "http://stix.mitre.org/TTP-1", "Intended_Effect"⟩ ]

/-- A source that was a string. -/
def StringSource (c : Ctx) : Prop :=
  ∃ p ∈ stringHolders, InParent p ⟨some "http://stix.mitre.org/common-1", "Source"⟩ c

/-- The source of a sighting. -/
def SightingSource (c : Ctx) : Prop :=
  InParent ⟨some "http://stix.mitre.org/Indicator-2", "Sighting"⟩ ⟨some "http://stix.mitre.org/Indicator-2", "Source"⟩ c

/-- Text that can stand between tags as it is: no markup character, no carriage return, no end of a CDATA section. -/
def PlainText (s : String) : Prop :=
  '<' ∉ s.toList ∧ '&' ∉ s.toList ∧ '\r' ∉ s.toList ∧ ¬ ∃ a b, s.toList = a ++ [']', ']', '>'] ++ b

/-- If the text of `c` is plain, `n` has the same name and holds an identity with this text as its name; there is only
white space and namespace declarations besides. -/
def NamedSource (c : Ctx) (n : Node) : Prop := ∀ s, c.e.text = some s → PlainText s →
  ∃ ds ds' i j k l, (∀ x ∈ [i, j, k, l], ∀ y ∈ String.toList x, y = ' ' ∨ y = '\n') ∧
    n = .elem ⟨c.e.tag, ds, [], some i, none⟩
      [.elem ⟨⟨some "http://stix.mitre.org/common-1", "Identity"⟩, ds', [], some j, some k⟩
        [.elem ⟨⟨some "http://stix.mitre.org/common-1", "Name"⟩, [], [], some s, some l⟩ []]]

/-- The element around the campaigns of an indicator. -/
def relatedCampaigns : QName := ⟨some "http://stix.mitre.org/Indicator-2", "Related_Campaigns"⟩
/-- A campaign of an indicator. -/
def relatedCampaign : QName := ⟨some "http://stix.mitre.org/Indicator-2", "Related_Campaign"⟩

/-- `n` is a new related campaign that holds `c` as a `stixCommon:Campaign`. -/
def WrappedCampaign (c : Ctx) (n : Node) : Prop :=
  n = .elem ⟨relatedCampaign, [], [], none, none⟩
    [.elem { c.e with tag := ⟨some "http://stix.mitre.org/common-1", "Campaign"⟩ } c.kids]

/-- The stages of the STIX 1.1 step. -/
def Stix11Fields (o : Options) (t t' : Node) : Prop :=
  ∃ a b c d, Node.Rel StixTouched t a ∧ Replaced StringSource NamedSource a b ∧ Replaced SightingSource NamedSource b c ∧
    Replaced (InParent relatedCampaigns relatedCampaign) WrappedCampaign c d ∧ Finished o InGenericTM d t'

/-! ## Helpers: stages -/

theorem touched_tag {e e' : Elem} (h : StixTouched e e') : e'.tag = e.tag := h.1.1

theorem touched_schemaloc (u : Cls) (t : Node) : Node.Rel StixTouched t (u.updateSchemalocs t) := by
  rw [updateSchemalocs_eq]
  refine rel_mapCtx (fun c => ⟨sameData_schemaloc (by decide) u c, ?_⟩) _ _ _ _
  unfold schemalocEdit
  split
  · unfold Cls.updateSchemalocsElem
    split <;> rfl
  · rfl

theorem touched_versions (u : Cls) (i v : String) (t : Node) : Node.Rel StixTouched t (stixUpdateVersions u i v t) := by
  rw [stixVersions_eq]
  refine rel_mapCtx (fun c => ⟨sameData_version (fun e => ?_) c, ?_⟩) _ _ _ _
  · unfold setStixVersion
    split <;> exact SameData.set (k := attrVersion) (by decide) _ e
  · unfold versionEdit
    split
    · unfold setStixVersion
      split <;> rfl
    · rfl

theorem touched_trans : ∀ a b c : Elem, StixTouched a b → StixTouched b c → StixTouched a c :=
  fun _ _ _ h h' => ⟨h.1.trans h'.1, h'.2.trans h.2⟩

theorem relIn_inParent {m : List (String × String)} {p n q k : String} {P Q : QName} (hp : XName.resolve m ⟨p, n⟩ = P)
    (hq : XName.resolve m ⟨q, k⟩ = Q) {c : Ctx} :
    (([relIn p n q k].any (fun a => a.selects m c)) = true) ↔ InParent P Q c := by
  simp only [List.any_cons, List.any_nil, Bool.or_false]
  rw [relIn_selects, hp, hq]
  unfold InParent
  constructor
  · rintro ⟨h1, h2, h3⟩
    refine ⟨h3, ?_⟩
    match hc : c.anc, h1, h2 with
    | x :: y :: ys, _, h2 => simp only [List.head?_cons, Option.some.injEq] at h2; exact ⟨y, ys, by rw [h2]⟩
  · rintro ⟨h1, r, rs, h2⟩
    rw [h2]
    exact ⟨by simp, rfl, h1⟩

theorem sourcesOf {c : Ctx} {n : Node} (h : translateContributors c = .ok n) : SourcesOf c n := by
  unfold translateContributors at h
  split at h
  · cases h
  · next ks hk =>
    cases h
    have : ∀ {l ks : List Node}, mapE translateContributor l = .ok ks → (∀ k ∈ l, ∃ e ks, k = Node.elem e ks) ∧ ks = l.map asSource := by
      intro l
      induction l with
      | nil => intro ks h; simp only [mapE] at h; cases h; simp
      | cons k l ih =>
        intro ks h
        simp only [mapE] at h
        split at h
        · cases h
        · next x hx =>
          split at h
          · cases h
          · next xs hxs =>
            cases h
            obtain ⟨h1, h2⟩ := ih hxs
            cases k with
            | other _ _ => cases hx
            | elem e es =>
              cases hx
              exact ⟨by intro k hk; rcases List.mem_cons.1 hk with rfl | hk
                        · exact ⟨e, es, rfl⟩
                        · exact h1 k hk, by rw [h2]; rfl⟩
    obtain ⟨h1, h2⟩ := this hk
    exact ⟨h1, by rw [h2]; rfl⟩

/-- The stages of the 1.0.1 step. -/
theorem stix101_stages {w : World} {o : Options} {t t' : Node} (h : stix101Update w o t = .ok t') :
    ∃ a b c d, cybox201Update stix101Cybox o t = .ok a ∧ Node.Rel StixTouched a b ∧
      Replaced (fun c => c.anc ≠ [] ∧ c.e.tag = contributors) SourcesOf b c ∧
      Replaced (InParent exploitTargets exploitTarget) WrappedTarget c d ∧ Finished o (Named optional11) d t' := by
  unfold stix101Update at h
  split at h
  · cases h
  · next a ha =>
    simp only at h
    rw [updateNamespaces_none (by rfl)] at h
    split at h
    · cases h
    · next d hd =>
      split at h
      · cases h
      · next v hv =>
        unfold translateFields at hd
        simp only [stix101Cls, foldE] at hd
        split at hd
        · cases hd
        · next c hc =>
          split at hd
          · cases hd
          · next d' hd' =>
            cases hd
            refine ⟨a, stixUpdateVersions (stix101Cls w) "2.1" "1.1" ((stix101Cls w).updateSchemalocs a), c, d, ha,
              Node.Rel.comp touched_trans (touched_schemaloc _ a) (touched_versions _ _ _ _), ?_, ?_,
              v, vocabsIf_rel (by simp only [stix101Cls]; decide) hv, fun ho => ?_, fun ho => ?_, vocabsIf_off hv⟩
            · refine (translate_custom hc).mono (fun x _ => ?_) (fun x _ n _ hq => sourcesOf hq)
              refine Iff.trans ?_ rel_selects.symm
              rw [show XName.resolve Tables.stix101_nsmap ⟨"stixCommon", "Contributors"⟩ = contributors by decide +kernel]
            · refine (translate_custom hd').mono (fun x _ => ?_) (fun x _ n _ hq => ?_)
              · exact (relIn_inParent (by decide +kernel) (by decide +kernel)).symm
              · cases hq; rfl
            · rw [if_pos ho, optionals_pass11] at h
              cases h
              exact gone_named v
            · rw [if_neg (by simp [ho])] at h
              cases h
              rfl

theorem hasCdataEnd_iff : ∀ l : List Char, hasCdataEnd l = true ↔ ∃ a b, l = a ++ [']', ']', '>'] ++ b
  | [] => by simp [hasCdataEnd]
  | x :: xs => by
    have ih := hasCdataEnd_iff xs
    have back : hasCdataEnd (x :: xs) = true → ∃ a b, x :: xs = a ++ [']', ']', '>'] ++ b := by
      intro h
      unfold hasCdataEnd at h
      split at h
      · next cs he => exact ⟨[], cs, he⟩
      · next he => cases he; obtain ⟨a, b, hab⟩ := ih.1 h; exact ⟨x :: a, b, by rw [hab]; rfl⟩
      · next he => cases he
    refine ⟨back, ?_⟩
    rintro ⟨a, b, hab⟩
    unfold hasCdataEnd
    split
    · rfl
    · next he =>
      cases he
      rename_i hne
      cases a with
      | nil =>
        exfalso
        simp only [List.nil_append, List.cons_append] at hab
        cases hab
        exact hne b rfl rfl
      | cons y ys =>
        cases hab
        exact ih.2 ⟨ys, b, rfl⟩
    · next he => cases he

theorem xmlPlain_iff (s : String) : xmlPlain s = true ↔ PlainText s := by
  unfold xmlPlain PlainText
  rw [Bool.and_eq_true, List.all_eq_true, Bool.not_eq_true', ← Bool.not_eq_true, hasCdataEnd_iff]
  simp only [Bool.and_eq_true, bne_iff_ne, ne_eq]
  constructor
  · rintro ⟨h1, h2⟩
    exact ⟨fun h => (h1 _ h).1.1 rfl, fun h => (h1 _ h).1.2 rfl, fun h => (h1 _ h).2 rfl, h2⟩
  · rintro ⟨h1, h2, h3, h4⟩
    exact ⟨fun x hx => ⟨⟨fun e => h1 (e ▸ hx), fun e => h2 (e ▸ hx)⟩, fun e => h3 (e ▸ hx)⟩, h4⟩

theorem namedSource_common {w : World} {c : Ctx} {n : Node} (ht : c.e.tag = ⟨some nsCommon, "Source"⟩)
    (h : translateCommonSource w c = .ok n) : NamedSource c n := by
  intro s hs hp
  have hf : formatText c.e.text = s := by rw [hs]; rfl
  unfold translateCommonSource at h
  rw [hf] at h
  simp only [(xmlPlain_iff s).2 hp, if_true] at h
  cases h
  rw [ht]
  exact ⟨_, _, _, _, _, _, by decide, rfl⟩

theorem namedSource_sighting {w : World} {c : Ctx} {n : Node} (ht : c.e.tag = ⟨some nsIndicator, "Source"⟩)
    (h : translateSightingSource w c = .ok n) : NamedSource c n := by
  intro s hs hp
  have hf : formatText c.e.text = s := by rw [hs]; rfl
  unfold translateSightingSource at h
  rw [hf] at h
  simp only [(xmlPlain_iff s).2 hp, if_true] at h
  cases h
  rw [ht]
  exact ⟨_, _, _, _, _, _, by decide, rfl⟩

theorem stringSource_iff {c : Ctx} :
    ((sourceParents.map (fun p => relIn p.1 p.2 "stixCommon" "Source")).any (fun a => a.selects Tables.stix11_nsmap c) = true) ↔
      StringSource c := by
  have e : stringHolders = sourceParents.map (fun p => XName.resolve Tables.stix11_nsmap ⟨p.1, p.2⟩) := by decide +kernel
  have e2 : XName.resolve Tables.stix11_nsmap ⟨"stixCommon", "Source"⟩ = ⟨some "http://stix.mitre.org/common-1", "Source"⟩ := by
    decide +kernel
  unfold StringSource
  rw [e, List.any_map, List.any_eq_true]
  constructor
  · rintro ⟨p, hp, h⟩
    refine ⟨_, List.mem_map.2 ⟨p, hp, rfl⟩, (relIn_inParent rfl e2).1 ?_⟩
    simpa using h
  · rintro ⟨q, hq, h⟩
    obtain ⟨p, hp, rfl⟩ := List.mem_map.1 hq
    refine ⟨p, hp, ?_⟩
    have := (relIn_inParent (p := p.1) (n := p.2) rfl e2).2 h
    simpa using this

theorem generic_pass {w : World} {t t' : Node} (h : removeOptionals (stix11Cls w).optionals t = .ok t') :
    OptionalsGone InGenericTM t t' := by
  simp only [stix11Cls, removeOptionals, foldE] at h
  split at h
  · cases h
  · next x hx =>
    cases h
    split at hx
    · cases hx
    · next l hf =>
      cases hx
      exact gone_positions (genericTM_find hf)

/-- The stages of the 1.1 step. -/
theorem stix11_stages {w : World} {o : Options} {t t' : Node} (h : stix11Update w o t = .ok t') : Stix11Fields o t t' := by
  unfold stix11Update at h
  simp only at h
  split at h
  · cases h
  · next d hd =>
    split at h
    · cases h
    · next v hv =>
      unfold translateFields at hd
      simp only [stix11Cls, foldE] at hd
      split at hd
      · cases hd
      · next b hb =>
        split at hd
        · cases hd
        · next c hc =>
          split at hd
          · cases hd
          · next d' hd' =>
            cases hd
            refine ⟨stixUpdateVersions (stix11Cls w) "2.1.1" "1.1.1" ((stix11Cls w).updateSchemalocs (stix11Cybox.updateSchemalocs t)),
              b, c, d, Node.Rel.comp touched_trans (Node.Rel.comp touched_trans (touched_schemaloc _ t) (touched_schemaloc _ _))
                (touched_versions _ _ _ _), ?_, ?_, ?_, v, vocabsIf_rel (by simp only [stix11Cls]; decide) hv, fun ho => ?_, fun ho => ?_, vocabsIf_off hv⟩
            · refine (translate_custom hb).mono (fun x _ => stringSource_iff.symm) (fun x _ n hs hq => ?_)
              obtain ⟨p, _, hp⟩ := stringSource_iff.1 hs
              exact namedSource_common hp.1 hq
            · have hi : ∀ x : Ctx, _ ↔ SightingSource x := fun x =>
                relIn_inParent (m := Tables.stix11_nsmap) (p := "indicator") (n := "Sighting") (q := "indicator") (k := "Source")
                  (by decide +kernel) (by decide +kernel)
              refine (translate_custom hc).mono (fun x _ => (hi x).symm) (fun x _ n hs hq => ?_)
              exact namedSource_sighting ((hi x).1 hs).1 hq
            · refine (translate_custom hd').mono (fun x _ => ?_) (fun x _ n _ hq => ?_)
              · exact (relIn_inParent (by decide +kernel) (by decide +kernel)).symm
              · cases hq; rfl
            · rw [if_pos ho] at h
              exact generic_pass h
            · rw [if_neg (by simp [ho])] at h
              cases h
              rfl

/-! ## Helpers: what is inside what -/

/-- A namespace without CybOX fields that change. -/
def Outside (q : QName) : Prop :=
  q.ns ≠ some "http://cybox.mitre.org/objects#WinDriverObject-3" ∧ q.ns ≠ some "http://cybox.mitre.org/objects#HTTPSessionObject-2" ∧
  q.ns ≠ some "http://cybox.mitre.org/objects#PacketObject-2" ∧ q.ns ≠ some "http://cybox.mitre.org/objects#WinMailslotObject-2"

theorem respell_outside {q r : QName} (hr : Outside r) (h : respell q = r) : q = r := by
  refine respell_inv h ?_
  intro p hp e
  simp only [spelling, List.mem_cons, List.not_mem_nil, or_false] at hp
  rcases hp with rfl | rfl | rfl | rfl
  · exact hr.2.1 (by rw [← e])
  · exact hr.2.2.1 (by rw [← e])
  · exact hr.2.2.1 (by rw [← e])
  · exact hr.2.2.1 (by rw [← e])

theorem finished_noIn {o : Options} {L : Node → Ctx → Prop} {b t' : Node} (h : Finished o L b t') {X Y : QName}
    (hb : b.NoIn X Y) : t'.NoIn X Y := by
  obtain ⟨d, h1, h2, h3, _⟩ := h
  have hd : d.NoIn X Y := rel_noIn (fun e e' h hx => h.1.1 ▸ hx) (fun e e' h hx => h.1.1 ▸ hx) h1 hb
  cases ho : o.removeOptionals with
  | false => rw [h3 ho]; exact hd
  | true =>
    obtain ⟨S, _, rfl⟩ := h2 ho
    exact noIn_without hd

theorem header_noIn {name : String} {Q : Ctx → Node → Prop} {a b : Node} (h : Replaced (Header name) Q a b)
    (hq : ∀ c n, Q c n → ∃ as tx, n = .elem ⟨c.e.tag, [], as, tx, none⟩ []) {X Y : QName} (ha : a.NoIn X Y) : b.NoIn X Y := by
  refine h.noIn (fun c _ n _ hn => ?_) ha
  obtain ⟨as, tx, rfl⟩ := hq c n hn
  exact ⟨fun _ => ⟨fun _ => by simp [Node.Alls], by simp [Node.NoIns]⟩, fun h => ⟨h.1, by simp [Node.Alls]⟩⟩

theorem noIn_child {X Y : QName} {ks : List Node} (h : Node.NoIns X Y ks) {k : Node} (hk : k ∈ ks) : k.NoIn X Y := by
  induction ks with
  | nil => simp at hk
  | cons x xs ih =>
    rcases List.mem_cons.1 hk with rfl | hk
    · exact h.1
    · exact ih h.2 hk

theorem noIns_of {X Y : QName} {ks : List Node} (h : ∀ k ∈ ks, k.NoIn X Y) : Node.NoIns X Y ks := by
  induction ks with
  | nil => simp [Node.NoIns]
  | cons x xs ih => exact ⟨h x (by simp), ih (fun k hk => h k (by simp [hk]))⟩

theorem cybox_noIn {Q : Ctx → Node → Prop} {o : Options} {t t' : Node} (h : CyboxFields Q o t t')
    (hq : ∀ c n, Q c n → InnerHandle c n) {X Y : QName} (hX : Outside X) (hY : Outside Y) (ht : t.NoIn X Y) : t'.NoIn X Y := by
  obtain ⟨a, b, c, d, e, f, h1, h2, h3, h4, h5, h6, h7⟩ := h
  have q1 : ∀ c n, StringOf c n → ∃ as tx, n = .elem ⟨c.e.tag, [], as, tx, none⟩ [] :=
    fun c n ⟨v, as, _, hn, _⟩ => ⟨as, v.text, hn⟩
  have q2 : ∀ c n, RefreshOf c n → ∃ as tx, n = .elem ⟨c.e.tag, [], as, tx, none⟩ [] :=
    fun c n ⟨as, hn, _⟩ => ⟨as, c.e.text, hn⟩
  have i1 : a.NoIn X Y := rel_noIn (fun e e' h hx => prep_tag h hx hX.1) (fun e e' h hx => prep_tag h hx hY.1) h1 ht
  have i4 := header_noIn h4 q2 (header_noIn h3 q1 (header_noIn h2 q1 i1))
  have i5 : e.NoIn X Y := by
    unfold Respelt at h5
    subst h5
    have hr : Node.Rel (fun e e' => e'.tag = e.tag ∨ e'.tag = respell e.tag) d
        (d.edit (fun c => if c.anc.isEmpty then c.e else { c.e with tag := respell c.e.tag })) := by
      refine rel_mapCtx (fun c => ?_) _ _ _ _
      split
      · exact Or.inl rfl
      · exact Or.inr rfl
    refine rel_noIn ?_ ?_ hr i4
    · rintro x y (h | h) hx
      · rw [← h]; exact hx
      · exact respell_outside hX (h ▸ hx)
    · rintro x y (h | h) hx
      · rw [← h]; exact hx
      · exact respell_outside hY (h ▸ hx)
  refine finished_noIn h7 (h6.noIn ?_ i5)
  intro c _ n _ hn
  obtain ⟨x, xs, hm, _, rfl⟩ := hq c n hn
  constructor
  · intro hc
    refine ⟨fun hx => absurd ?_ hX.2.2.2, (noIn_child hc.2 hm).2⟩
    rw [← hx]
  · intro hc
    refine ⟨fun hy => absurd ?_ hY.2.2.2, (alls_iff.1 hc.2 _ hm).2⟩
    rw [← hy]

theorem touched_noIn {a b : Node} (h : Node.Rel StixTouched a b) {X Y : QName} (ha : a.NoIn X Y) : b.NoIn X Y :=
  rel_noIn (fun _ _ h hx => touched_tag h ▸ hx) (fun _ _ h hx => touched_tag h ▸ hx) h ha

theorem finished_below {o : Options} {L : Node → Ctx → Prop} {b t' : Node} (h : Finished o L b t') {P : QName → List QName → Prop}
    (hb : ∀ c ∈ b.elems, P c.e.tag c.anc) : ∀ c ∈ t'.elems, P c.e.tag c.anc := by
  obtain ⟨d, h1, h2, h3, _⟩ := h
  have hd : ∀ c ∈ d.elems, P c.e.tag c.anc := by
    intro c' hc'
    obtain ⟨c, hc, _, ha, hp, _⟩ := rel_elems_anc (fun e e' h => h.1.1) h1 hc'
    rw [ha, hp.1.1]
    exact hb c hc
  cases ho : o.removeOptionals with
  | false => rw [h3 ho]; exact hd
  | true =>
    obtain ⟨S, _, rfl⟩ := h2 ho
    intro c' hc'
    obtain ⟨c, hc, he, _, ha, _⟩ := mem_without hc'
    rw [he, ha]
    exact hd c hc

/-- New nodes of the contributors stage. -/
theorem sources_noIn {b c : Node} (h : Replaced (fun c => c.anc ≠ [] ∧ c.e.tag = contributors) SourcesOf b c) {X Y : QName}
    (hX : X.name ∉ ["Contributing_Sources", "Source", "Identity"]) (hY : Y.name ∉ ["Contributing_Sources", "Source", "Identity"])
    (hb : b.NoIn X Y) : c.NoIn X Y := by
  simp only [List.mem_cons, List.not_mem_nil, or_false, not_or] at hX hY
  refine h.noIn ?_ hb
  rintro d _ n _ ⟨_, rfl⟩
  constructor
  · intro hd
    refine ⟨fun hx => absurd (by rw [← hx]) hX.1, noIns_of ?_⟩
    intro k hk
    obtain ⟨k0, hk0, rfl⟩ := List.mem_map.1 hk
    have h0 := noIn_child hd.2 hk0
    cases k0 with
    | other _ _ => simp [asSource, Node.NoIn]
    | elem e ks =>
      exact ⟨fun hx => absurd (by rw [← hx]) hX.2.1, ⟨fun hx => absurd (by rw [← hx]) hX.2.2, h0.2⟩, trivial⟩
  · intro hd
    refine ⟨fun hy => absurd (by rw [← hy]) hY.1, alls_iff.2 ?_⟩
    intro k hk
    obtain ⟨k0, hk0, rfl⟩ := List.mem_map.1 hk
    have h0 := alls_iff.1 hd.2 _ hk0
    cases k0 with
    | other _ _ => simp [asSource, Node.All]
    | elem e ks =>
      exact ⟨fun hy => absurd (by rw [← hy]) hY.2.1, ⟨fun hy => absurd (by rw [← hy]) hY.2.2, h0.2⟩, trivial⟩

/-- The stages of the whole 1.0.1 step. -/
theorem stix101_fields {w : World} {o : Options} {t t' : Node} (h : stix101Update w o t = .ok t') :
    Stix101Fields InnerHandle o t t' := by
  obtain ⟨a, b, c, d, h1, h2, h3, h4, h5⟩ := stix101_stages h
  exact ⟨a, b, c, d, C28_partial _ _ o t a h1, h2, h3, h4, h5⟩

/-- Where the 1.0.1 step leaves no unwrapped target. -/
theorem targets_wrapped {c d : Node} (h : Replaced (InParent exploitTargets exploitTarget) WrappedTarget c d)
    (hc : c.NoIn exploitTarget exploitTargets) : ∀ x ∈ d.elems, ¬ InParent exploitTargets exploitTarget x := by
  rintro x hx ⟨h1, r, rs, h2⟩
  rcases h.elems hx with ⟨y, hy, he, _, ha, _, hs, _⟩ | ⟨y, hy, _, hs, n, env0, rfl, _, hw⟩
  · exact hs (by rw [← ha, h2]; simp) ⟨he ▸ h1, r, rs, ha ▸ h2⟩
  · simp only [Node.walk, Node.walks, List.mem_cons, List.append_nil] at hw
    rcases hw with rfl | hw
    · simp [exploitTarget] at h1
    · have hall : (Node.elem y.e y.kids).All (fun e => e.tag ≠ exploitTargets) :=
        ⟨show y.e.tag ≠ _ by rw [hs.1]; decide, noIn_elems.1 hc y hy hs.1⟩
      have hw' : x ∈ (Node.elem y.e y.kids).walk (0 :: y.pos) ([] ++ env0)
          (⟨some "http://stix.mitre.org/TTP-1", "Exploit_Target"⟩ :: y.anc) := by
        simp only [Node.walk, List.mem_cons]; exact hw
      rcases walk_holder hall hw' with h3 | ⟨e, h3, h4⟩
      · rw [h2] at h3
        simp only [List.cons.injEq] at h3
        exact absurd h3.1 (by decide)
      · rw [h2] at h4
        simp only [List.head?_cons, Option.some.injEq] at h4
        exact h3 h4.symm

/-! ## Theorems: the 1.0.1 step -/

/-- C31: the stages of the STIX 1.0.1 step.  Every outermost `stixCommon:Exploit_Target` in a `ttp:Exploit_Targets` is put,
as it is, in a new `ttp:Exploit_Target`.  If no target has a list of targets in it, none is left unwrapped.
Partial: a target in the list of another target stays as it is (`C31_nested_target_fails`). -/
theorem C31_exploit_partial (w : World) (o : Options) (t t' : Node) (h : (stix101 w).update o t = .ok t') :
    Stix101Fields InnerHandle o t t' ∧
    (NoneInside exploitTarget exploitTargets t → ∀ c ∈ t'.elems, ¬ InParent exploitTargets exploitTarget c) := by
  have hf := stix101_fields h
  refine ⟨hf, fun hn => ?_⟩
  obtain ⟨a, b, c, d, h1, h2, h3, h4, h5⟩ := hf
  have i3 := sources_noIn h3 (by decide) (by decide) (touched_noIn h2 (cybox_noIn h1 (fun _ _ h => h)
    (X := exploitTarget) (Y := exploitTargets) ⟨by decide, by decide, by decide, by decide⟩ ⟨by decide, by decide, by decide, by decide⟩
    (noIn_elems.2 hn)))
  exact finished_below h5 (P := fun q anc => ¬ (q = exploitTarget ∧ ∃ r rs, anc = exploitTargets :: r :: rs))
    (targets_wrapped h4 i3)

/-- A 1.0.1 package with two TTPs, one exploit target in the first and two in the second. -/
def docTargets : Node :=
  stixDoc "1.0.1"
    [el nsTTP "Exploit_Targets" []
      [el nsCommon "Exploit_Target" [at_ "id" "a"] [el "urn:a" "x" [] []] (some "t")],
     el nsTTP "Exploit_Targets" []
      [el nsCommon "Exploit_Target" [at_ "id" "b"] [], el nsCommon "Exploit_Target" [at_ "id" "c"] []]]

/-- Decides `NoneInside`. -/
theorem noneInside_of {x y : QName} {t : Node} (h : ∀ c ∈ t.elems, c.e.tag = x → ∀ k ∈ c.kids, ∀ d ∈ k.walk [] [] [], d.e.tag ≠ y) :
    NoneInside x y t := fun c hc ht => alls_iff.2 (fun k hk => (all_iff [] [] [] k).2 (h c hc ht k hk))

example : NoneInside exploitTarget exploitTargets docTargets ∧ ∃ t', (stix101 w0).update o0 docTargets = .ok t' ∧
    t'.kids = [el nsTTP "Exploit_Targets" []
        [el nsTTP "Exploit_Target" [] [el nsCommon "Exploit_Target" [at_ "id" "a"] [el "urn:a" "x" [] []] (some "t")]],
      el nsTTP "Exploit_Targets" []
        [el nsTTP "Exploit_Target" [] [el nsCommon "Exploit_Target" [at_ "id" "b"] []],
          el nsTTP "Exploit_Target" [] [el nsCommon "Exploit_Target" [at_ "id" "c"] []]]] :=
  ⟨noneInside_of (by decide +kernel), ok_of_eval (by decide +kernel)⟩

/-- A 1.0.1 package with a target in the list of a target. -/
def docNestedTargets : Node :=
  stixDoc "1.0.1" [el nsTTP "Exploit_Targets" [] [el nsCommon "Exploit_Target" []
    [el nsTTP "Exploit_Targets" [] [el nsCommon "Exploit_Target" [at_ "id" "n"] []]]]]

/-- C31 fails: the inner exploit target stays unwrapped. -/
theorem C31_nested_target_fails : ∃ r, stepUpdate (stix101 w0) o0 false 0 docNestedTargets = .ok r ∧
    r.1.doc.kids = [el nsTTP "Exploit_Targets" [] [el nsTTP "Exploit_Target" [] [el nsCommon "Exploit_Target" []
      [el nsTTP "Exploit_Targets" [] [el nsCommon "Exploit_Target" [at_ "id" "n"] []]]]]] :=
  ok_of_eval (by decide +kernel)

/-- C32: every outermost `Contributors` below the root becomes a list of sources, one for each child, in their order, whose
identity is that child (attributes, declarations, text, tail and children).  If no list of contributors is inside another,
none is left.
Partial: a comment in the list makes the update fail (`C32_comment_fails`), what is on the list itself is lost
(`C32_list_lost`), and a list inside a list stays (`C32_nested_fails`). -/
theorem C32_partial (w : World) (o : Options) (t t' : Node) (h : (stix101 w).update o t = .ok t') :
    Stix101Fields InnerHandle o t t' ∧
    (NoneInside contributors contributors t → ∀ c ∈ t'.elems, c.anc ≠ [] → c.e.tag ≠ contributors) := by
  have hf := stix101_fields h
  refine ⟨hf, fun hn => ?_⟩
  obtain ⟨a, b, c, d, h1, h2, h3, h4, h5⟩ := hf
  have i2 := touched_noIn h2 (cybox_noIn h1 (fun _ _ h => h) (X := contributors) (Y := contributors)
    ⟨by decide, by decide, by decide, by decide⟩ ⟨by decide, by decide, by decide, by decide⟩ (noIn_elems.2 hn))
  have i3 := h3.below (P := fun e => e.tag ≠ contributors) (fun x _ hne hs ht => hs ⟨hne, ht⟩) (by
    rintro x hx n hs ⟨_, rfl⟩
    refine ⟨by decide, alls_iff.2 ?_⟩
    intro k hk
    obtain ⟨k0, hk0, rfl⟩ := List.mem_map.1 hk
    have h0 := alls_iff.1 (noIn_elems.1 i2 x hx hs.2) _ hk0
    cases k0 with
    | other _ _ => simp [asSource, Node.All]
    | elem e ks => exact ⟨by decide, ⟨show _ ≠ _ by simp [contributors], h0.2⟩, trivial⟩)
  have i4 := h4.below (P := fun e => e.tag ≠ contributors) (fun x hx hne _ => i3 x hx hne) (by
    rintro x hx n ⟨_, r, rs, ha⟩ rfl
    exact ⟨by decide, below_all i3 hx (by rw [ha]; simp), trivial⟩)
  exact finished_below h5 (P := fun q anc => anc ≠ [] → q ≠ contributors) i4

/-- A 1.0.1 package with two contributors. -/
def docContributors : Node :=
  stixDoc "1.0.1" [el nsCommon "Contributors" [] [el nsCommon "Contributor" [at_ "id" "a"] [el nsCommon "Name" [] [] (some "A")],
    el nsCommon "Contributor" [] [] (some "B")]]

example : NoneInside contributors contributors docContributors ∧ ∃ t', (stix101 w0).update o0 docContributors = .ok t' ∧
    t'.kids = [el nsCommon "Contributing_Sources" []
      [el nsCommon "Source" [] [el nsCommon "Identity" [at_ "id" "a"] [el nsCommon "Name" [] [] (some "A")]],
        el nsCommon "Source" [] [el nsCommon "Identity" [] [] (some "B")]]] :=
  ⟨noneInside_of (by decide +kernel), ok_of_eval (by decide +kernel)⟩

/-- A 1.0.1 package with a comment between the contributors. -/
def docContributorsComment : Node :=
  stixDoc "1.0.1" [el nsCommon "Contributors" [] [.other "who" none, el nsCommon "Contributor" [] []]]

/-- C32 fails: with a comment in the list of contributors the update ends with `AttributeError`, forced or not. -/
theorem C32_comment_fails : stepUpdate (stix101 w0) o0 false 0 docContributorsComment = .error .attributeError ∧
    stepUpdate (stix101 w0) o0 true 0 docContributorsComment = .error .attributeError := by decide +kernel

/-- A 1.0.1 package with text and an attribute on the list of contributors. -/
def docContributorsAttr : Node := stixDoc "1.0.1" [el nsCommon "Contributors" [at_ "id" "l"] [] (some "us")]

/-- C32 fails: what is on the list of contributors is lost. -/
theorem C32_list_lost : ∃ r, stepUpdate (stix101 w0) o0 false 0 docContributorsAttr = .ok r ∧
    r.1.doc.kids = [el nsCommon "Contributing_Sources" [] []] := ok_of_eval (by decide +kernel)

/-- A 1.0.1 package with a list of contributors in a contributor. -/
def docContributorsNested : Node :=
  stixDoc "1.0.1" [el nsCommon "Contributors" [] [el nsCommon "Contributor" [] [el nsCommon "Contributors" [] []]]]

/-- C32 fails: a list of contributors inside another is left. -/
theorem C32_nested_fails : ∃ r, stepUpdate (stix101 w0) o0 false 0 docContributorsNested = .ok r ∧
    r.1.doc.kids = [el nsCommon "Contributing_Sources" []
      [el nsCommon "Source" [] [el nsCommon "Identity" [] [el nsCommon "Contributors" [] []]]]] := ok_of_eval (by decide +kernel)

/-- C29: no misspelt CybOX name is left by the STIX 1.0.1 step. -/
theorem C29_stix_none_left (w : World) (o : Options) (force : Bool) (k k' : Nat) (t : Node) (r : Result)
    (hr : ∀ e, t.root? = some e → WellSpelt e) (h : stepUpdate (stix101 w) o force k t = .ok (r, k')) :
    ∀ c ∈ r.doc.elems, c.e.tag ∉ spelling.map (·.1) := by
  obtain ⟨t0, h0, hu⟩ := step_update (w := w) .stix101 h
  obtain ⟨a, b, c, d, h1, h2, h3, h4, h5⟩ := stix101_stages hu
  have w1 : a.All WellSpelt := cybox201_spelling h1 (by rw [h0]; exact hr)
  have w2 : b.All WellSpelt := rel_all (fun e e' hp he => by unfold WellSpelt at he ⊢; rw [touched_tag hp]; exact he) h2 w1
  have w3 : c.All WellSpelt := h3.all w2 (by
    rintro x n hx ⟨_, rfl⟩
    refine ⟨show _ ∉ _ by simp [spelling], alls_iff.2 ?_⟩
    intro k hk
    obtain ⟨k0, hk0, rfl⟩ := List.mem_map.1 hk
    have h0 := alls_iff.1 hx.2 _ hk0
    cases k0 with
    | other _ _ => simp [asSource, Node.All]
    | elem e ks => exact ⟨show _ ∉ _ by simp [spelling], ⟨show _ ∉ _ by simp [spelling], h0.2⟩, trivial⟩)
  have w4 : d.All WellSpelt := h4.all w3 (by
    rintro x n hx rfl
    exact ⟨show _ ∉ _ by simp [spelling], hx, trivial⟩)
  exact all_elems.1 (finished_all h5 (fun e e' hv he => by unfold WellSpelt at he ⊢; rw [hv.1.1]; exact he) w4)

/-- A 1.0.1 package with misspelt CybOX fields and a two-level handle. -/
def docStixPacket : Node :=
  stixDoc "1.0.1" [el nsStix "Observables" v201
    [el nsPacket "Protol_Addr_Size" [] [el nsPacket "Authenication_Data" [] []],
      el nsWinMailslot "Handle" [] [el nsHandle "Handle" [at_ "id" "h"] [] (some "x")]]]

example : (∀ e, docStixPacket.root? = some e → WellSpelt e) ∧
    ∃ r, stepUpdate (stix101 w0) o0 false 0 docStixPacket = .ok r ∧
      r.1.doc.kids = [el nsStix "Observables" [at_ "cybox_major_version" "2", at_ "cybox_minor_version" "1"]
        [el nsPacket "Proto_Addr_Size" [] [el nsPacket "Authentication_Data" [] []],
          el nsWinMailslot "Handle" [at_ "id" "h"] [] (some "x")]] :=
  ⟨by intro e he; cases he; show _ ∉ _; decide, ok_of_eval (by decide +kernel)⟩

/-- The check of the 1.0.1 step lets only two-level handles with one child node pass. -/
theorem stix_check_single {w : World} {o : Options} {t : Node} (h : (stix101 w).check o t = .ok ()) : Single t := by
  have h' : stix101Check w o t = .ok () := h
  unfold stix101Check at h'
  split at h'
  · cases h'
  · simp only at h'
    split at h'
    · cases h'
    · next dis hdis =>
      split at h'
      · next hd =>
        simp only [Bool.and_eq_true, List.isEmpty_iff] at hd
        unfold stix101GetDisallowed at hdis
        split at hdis
        · cases hdis
        · next x _ =>
          obtain ⟨l, h1, h2⟩ := findAll_201 t
          have h3 : findAll stix101Cybox.disallowed t = .ok l := h1
          rw [h3] at hdis
          simp only [Except.ok.injEq] at hdis
          rw [hd.1] at hdis
          have hl0 : l = [] := (List.append_eq_nil_iff.1 hdis).2
          intro c hc ⟨x1, x2, e, ks, x3, x4⟩
          have hl : 0 < c.kids.length := List.length_pos_of_mem x3
          have hn : c ∉ l := by rw [hl0]; simp
          rw [reportsAll_mem h2] at hn
          rcases Nat.lt_or_ge 1 c.kids.length with hg | hg
          · refine absurd ⟨hc, rules201[3], List.getElem_mem _, ?_⟩ hn
            exact ⟨⟨x1, x2⟩, ⟨e, ks, x3, x4⟩, hg⟩
          · omega
      · cases h'

/-- C30 inside a STIX package: if the check of the 1.0.1 step passes, its CybOX part replaces every outermost two-level
handle by the handle that was its only child node; if no handle is inside a handle, this part leaves no two-level handle.
Partial: as `C30_partial`. -/
theorem C30_stix_partial (w : World) (o : Options) (t t' : Node) (hc : (stix101 w).check o t = .ok ())
    (h : (stix101 w).update o t = .ok t') :
    ∃ a b c d, CyboxFields OnlyHandle o t a ∧ (NoNestedHandle t → ∀ c ∈ a.elems, ¬ TwoLevel c) ∧ Node.Rel StixTouched a b ∧
      Replaced (fun c => c.anc ≠ [] ∧ c.e.tag = contributors) SourcesOf b c ∧
      Replaced (InParent exploitTargets exploitTarget) WrappedTarget c d ∧ Finished o (Named optional11) d t' := by
  obtain ⟨a, b, c, d, h1, h2, h3, h4, h5⟩ := stix101_stages h
  obtain ⟨g1, g2⟩ := handles_201 (m := joinNsmap Tables.stix101_nsmap Tables.cybox201_nsmap) (sel := stix101Selectors) h1
    (stix_check_single hc)
  exact ⟨a, b, c, d, g1, g2, h2, h3, h4, h5⟩

example : (stix101 w0).check o0 docStixPacket = .ok () ∧ NoNestedHandle docStixPacket ∧
    ∃ t', (stix101 w0).update o0 docStixPacket = .ok t' :=
  ⟨by decide +kernel, noneInside_of (by decide +kernel), by
    obtain ⟨r, h, _⟩ := ok_of_eval (x := (stix101 w0).update o0 docStixPacket) (P := fun _ => True) (by decide +kernel)
    exact ⟨r, h⟩⟩

/-! ## Helpers: the 1.1 step -/

/-- The sources that were strings have plain text. -/
def PlainStrings (t : Node) : Prop := ∀ c ∈ t.elems, StringSource c ∨ SightingSource c → ∃ s, c.e.text = some s ∧ PlainText s

theorem touched_inParent {a b : Node} (h : Node.Rel StixTouched a b) {c' : Ctx} (hc : c' ∈ b.elems) : ∃ c ∈ a.elems,
    c'.e.text = c.e.text ∧ ∀ p q, InParent p q c' ↔ InParent p q c := by
  obtain ⟨c, h1, _, h2, h3, _⟩ := rel_elems_anc (fun _ _ h => touched_tag h) h hc
  refine ⟨c, h1, h3.2, fun p q => ?_⟩
  unfold InParent
  rw [touched_tag h3, h2]

theorem touched_plain {a b : Node} (h : Node.Rel StixTouched a b) (ha : PlainStrings a) : PlainStrings b := by
  intro c' hc' hs
  obtain ⟨c, hc, ht, hp⟩ := touched_inParent h hc'
  rw [ht]
  refine ha c hc ?_
  rcases hs with ⟨p, h1, h2⟩ | hs
  · exact Or.inl ⟨p, h1, (hp _ _).1 h2⟩
  · exact Or.inr ((hp _ _).1 hs)

/-- Through the first source stage. -/
theorem named_plain {a b : Node} (h : Replaced StringSource NamedSource a b) (ha : PlainStrings a) :
    ∀ c ∈ b.elems, SightingSource c → ∃ s, c.e.text = some s ∧ PlainText s := by
  intro c' hc' hs
  rcases h.elems hc' with ⟨c, hc, he, _, han, _⟩ | ⟨c, hc, _, hsel, n, env0, hq, _, hw⟩
  · rw [he]
    refine ha c hc (Or.inr ?_)
    unfold SightingSource InParent at hs ⊢
    rw [← he, ← han]; exact hs
  · obtain ⟨s, h1, h2⟩ := ha c hc (Or.inl hsel)
    obtain ⟨ds, ds', i, j, k, l, _, rfl⟩ := hq s h1 h2
    obtain ⟨p, _, hp⟩ := hsel
    have ht := hs.1
    simp only [Node.walk, Node.walks, List.mem_cons, List.append_nil, List.not_mem_nil, or_false] at hw
    rcases hw with rfl | rfl | rfl
    · simp only at ht; rw [hp.1] at ht; simp at ht
    · simp at ht
    · simp at ht

theorem named_noIn {Sel : Ctx → Prop} {a b : Node} (h : Replaced Sel NamedSource a b)
    (hp : ∀ c ∈ a.elems, Sel c → ∃ s, c.e.text = some s ∧ PlainText s) {X Y : QName}
    (hY : Y.name ∉ ["Source", "Identity", "Name"]) (hs : ∀ c, Sel c → c.e.tag.name = "Source")
    (ha : a.NoIn X Y) : b.NoIn X Y := by
  refine h.noIn ?_ ha
  intro c hc n hsel hq
  obtain ⟨s, h1, h2⟩ := hp c hc hsel
  obtain ⟨ds, ds', i, j, k, l, _, rfl⟩ := hq s h1 h2
  simp only [List.mem_cons, List.not_mem_nil, or_false, not_or] at hY
  have n2 : (⟨some "http://stix.mitre.org/common-1", "Identity"⟩ : QName) ≠ Y := fun e => hY.2.1 (by rw [← e])
  have n3 : (⟨some "http://stix.mitre.org/common-1", "Name"⟩ : QName) ≠ Y := fun e => hY.2.2 (by rw [← e])
  have n1 : c.e.tag ≠ Y := fun e => hY.1 (by rw [← e]; exact hs c hsel)
  constructor
  · intro _
    simp only [Node.NoIn, Node.NoIns, Node.Alls, Node.All]
    exact ⟨fun _ => ⟨⟨n2, ⟨n3, trivial⟩, trivial⟩, trivial⟩, ⟨fun _ => ⟨⟨n3, trivial⟩, trivial⟩, ⟨fun _ => trivial, trivial⟩, trivial⟩, trivial⟩
  · intro _
    simp only [Node.Alls, Node.All]
    exact ⟨n1, ⟨n2, ⟨n3, trivial⟩, trivial⟩, trivial⟩

/-- A related campaign that holds a campaign. -/
def HoldsCampaign (c : Ctx) : Prop :=
  ∃ e ks, c.kids = [.elem e ks] ∧ e.tag = ⟨some "http://stix.mitre.org/common-1", "Campaign"⟩

theorem campaigns_wrapped {c d : Node} (h : Replaced (InParent relatedCampaigns relatedCampaign) WrappedCampaign c d)
    (hc : c.NoIn relatedCampaign relatedCampaigns) : ∀ x ∈ d.elems, InParent relatedCampaigns relatedCampaign x →
      x.e.attrs = [] ∧ HoldsCampaign x := by
  rintro x hx ⟨h1, r, rs, h2⟩
  rcases h.elems hx with ⟨y, hy, he, _, ha, _, hs, _⟩ | ⟨y, hy, _, hs, n, env0, rfl, _, hw⟩
  · exact absurd ⟨he ▸ h1, r, rs, ha ▸ h2⟩ (hs (by rw [← ha, h2]; simp))
  · simp only [Node.walk, Node.walks, List.mem_cons, List.append_nil] at hw
    rcases hw with rfl | hw
    · exact ⟨rfl, _, _, rfl, rfl⟩
    · exfalso
      have hall : (Node.elem { y.e with tag := ⟨some "http://stix.mitre.org/common-1", "Campaign"⟩ } y.kids).All
          (fun e => e.tag ≠ relatedCampaigns) := ⟨show _ ≠ _ by simp [relatedCampaigns], noIn_elems.1 hc y hy hs.1⟩
      have hw' : x ∈ (Node.elem { y.e with tag := ⟨some "http://stix.mitre.org/common-1", "Campaign"⟩ } y.kids).walk (0 :: y.pos)
          ([] ++ env0) (relatedCampaign :: y.anc) := by
        simp only [Node.walk, List.mem_cons]; exact hw
      rcases walk_holder hall hw' with h3 | ⟨e, h3, h4⟩
      · rw [h2] at h3
        simp only [List.cons.injEq] at h3
        exact absurd h3.1 (by decide)
      · rw [h2] at h4
        simp only [List.head?_cons, Option.some.injEq] at h4
        exact h3 h4.symm

theorem finished_campaigns {o : Options} {d t' : Node} (h : Finished o InGenericTM d t')
    (hd : ∀ x ∈ d.elems, InParent relatedCampaigns relatedCampaign x → x.e.attrs = [] ∧ HoldsCampaign x) :
    ∀ x ∈ t'.elems, InParent relatedCampaigns relatedCampaign x → HoldsCampaign x := by
  obtain ⟨v, h1, h2, h3, _⟩ := h
  have hv : ∀ x ∈ v.elems, InParent relatedCampaigns relatedCampaign x → x.e.attrs = [] ∧ HoldsCampaign x := by
    intro x hx ⟨i1, i2⟩
    obtain ⟨y, hy, _, ha, hp, hk⟩ := rel_elems_anc (fun e e' h => h.1.1) h1 hx
    obtain ⟨j1, e, ks, j2, j3⟩ := hd y hy ⟨hp.1.1 ▸ i1, ha ▸ i2⟩
    have he : x.e = y.e := hp.2.1 (by simp [Elem.get?, j1, Attrs.get?])
    refine ⟨he ▸ j1, ?_⟩
    rw [j2] at hk
    match hxk : x.kids, hk with
    | [.elem e' ks'], hk =>
      simp only [Node.Rels, Node.Rel] at hk
      exact ⟨e', ks', hxk, hk.1.1.1.1 ▸ j3⟩
    | [.other _ _], hk => simp only [Node.Rels, Node.Rel] at hk; exact absurd hk.1 (by simp)
    | _ :: _ :: _, hk => simp only [Node.Rels] at hk; exact absurd hk.2 (by simp)
    | [], hk => simp only [Node.Rels] at hk
  cases ho : o.removeOptionals with
  | false => rw [h3 ho]; exact fun x hx hi => (hv x hx hi).2
  | true =>
    obtain ⟨S, hS, rfl⟩ := h2 ho
    intro x hx ⟨i1, i2⟩
    obtain ⟨y, hy, he, _, ha, hk, _⟩ := mem_without hx
    obtain ⟨j1, e, ks, j2, j3⟩ := hv y hy ⟨he ▸ i1, ha ▸ i2⟩
    have hm := walk_child v y hy 0 e ks (by rw [j2]; rfl)
    have hns : S ⟨0 :: y.pos, e.decls ++ y.env, y.e.tag :: y.anc, e, ks⟩ ≠ true := by
      intro hs
      obtain ⟨_, ⟨b, hb, _, ⟨i, hpos, _⟩, p, val, hval, _⟩, _⟩ := (hS _ hm).1 hs
      simp only [List.cons.injEq] at hpos
      have := elems_pos_inj hy hb hpos.2
      subst this
      simp [Elem.get?, j1, Attrs.get?] at hval
    rw [j2] at hk
    simp only [Node.pruneCtxs] at hk
    rw [if_neg hns] at hk
    exact ⟨e, _, hk, j3⟩

/-! ## Theorems: the 1.1 step -/

/-- C31: the stages of the STIX 1.1 step.  Every outermost `indicator:Related_Campaign` in an `indicator:Related_Campaigns` is
put in a new `indicator:Related_Campaign`, under the name `stixCommon:Campaign`, with its attributes, declarations, text, tail
and children.  If no campaign has a list of campaigns in it and the sources have plain text, every related campaign of the
result holds one campaign.
Partial: a campaign in the list of another campaign stays as it is (`C31_nested_campaign_fails`). -/
theorem C31_campaign_partial (w : World) (o : Options) (t t' : Node) (h : (stix11 w).update o t = .ok t') :
    Stix11Fields o t t' ∧ (NoneInside relatedCampaign relatedCampaigns t → PlainStrings t →
      ∀ c ∈ t'.elems, InParent relatedCampaigns relatedCampaign c → HoldsCampaign c) := by
  have hf := stix11_stages h
  refine ⟨hf, fun hn hp => ?_⟩
  obtain ⟨a, b, c, d, h1, h2, h3, h4, h5⟩ := hf
  have pa := touched_plain h1 hp
  have i1 := touched_noIn h1 (noIn_elems.2 hn)
  have i2 := named_noIn h2 (fun c hc hs => pa c hc (Or.inl hs)) (by decide) (fun c ⟨p, _, hc⟩ => by rw [hc.1]) i1
  have i3 := named_noIn h3 (named_plain h2 pa) (by decide) (fun c hc => by rw [hc.1]) i2
  exact finished_campaigns h5 (campaigns_wrapped h4 i3)

/-- A 1.1 package with two related campaigns and a source. -/
def docCampaigns : Node :=
  stixDoc "1.1" [el nsIndicator "Related_Campaigns" []
      [el nsIndicator "Related_Campaign" [at_ "idref" "a"] [] (some "x"),
        el nsIndicator "Related_Campaign" [] [el nsCommon "Names" [] [] (some "n")]],
    el nsIndicator "Confidence" [] [el nsCommon "Source" [] [] (some "me")]]

/-- Decides `PlainStrings`. -/
theorem plainStrings_of {t : Node} (h : ∀ c ∈ t.elems, c.e.tag.name = "Source" → (c.e.text.map xmlPlain) = some true) :
    PlainStrings t := by
  intro c hc hs
  have hn : c.e.tag.name = "Source" := by
    rcases hs with ⟨p, _, hp⟩ | hp
    · rw [hp.1]
    · rw [hp.1]
  have := h c hc hn
  cases ht : c.e.text with
  | none => rw [ht] at this; simp at this
  | some s => rw [ht] at this; exact ⟨s, rfl, (xmlPlain_iff s).1 (by simpa using this)⟩

example : NoneInside relatedCampaign relatedCampaigns docCampaigns ∧ PlainStrings docCampaigns ∧
    ∃ t', (stix11 w0).update o0 docCampaigns = .ok t' ∧
    t'.kids.take 1 = [el nsIndicator "Related_Campaigns" []
      [el nsIndicator "Related_Campaign" [] [el nsCommon "Campaign" [at_ "idref" "a"] [] (some "x")],
        el nsIndicator "Related_Campaign" [] [el nsCommon "Campaign" [] [el nsCommon "Names" [] [] (some "n")]]]] :=
  ⟨noneInside_of (by decide +kernel), plainStrings_of (by decide +kernel), ok_of_eval (by decide +kernel)⟩

/-- A 1.1 package with a campaign in the list of a campaign. -/
def docNestedCampaigns : Node :=
  stixDoc "1.1" [el nsIndicator "Related_Campaigns" [] [el nsIndicator "Related_Campaign" []
    [el nsIndicator "Related_Campaigns" [] [el nsIndicator "Related_Campaign" [at_ "idref" "n"] []]]]]

/-- C31 fails: the inner related campaign stays unwrapped. -/
theorem C31_nested_campaign_fails : ∃ r, stepUpdate (stix11 w0) o0 false 0 docNestedCampaigns = .ok r ∧
    r.1.doc.kids = [el nsIndicator "Related_Campaigns" [] [el nsIndicator "Related_Campaign" [] [el nsCommon "Campaign" []
      [el nsIndicator "Related_Campaigns" [] [el nsIndicator "Related_Campaign" [at_ "idref" "n"] []]]]]] :=
  ok_of_eval (by decide +kernel)

/-- C33: every outermost source that was a string and every source of a sighting becomes, if its text is plain, a source that
holds an identity with exactly this text as its name.
Partial: text with a markup character is put in the template as it is and can make the update fail (`C33_markup_fails`); a
source without text becomes one named `None` (`C33_empty_fails`); attributes, children and the text after a child node are lost
(`C33_rest_lost`). -/
theorem C33_partial (w : World) (o : Options) (t t' : Node) (h : (stix11 w).update o t = .ok t') : Stix11Fields o t t' :=
  stix11_stages h

/-- A source after the update. -/
def newSource (s : String) : Node :=
  .elem ⟨⟨some nsCommon, "Source"⟩, [(some "stixCommon", nsCommon)], [], some "\n            ", none⟩
    [.elem ⟨⟨some nsCommon, "Identity"⟩, [], [], some "\n                ", some "\n        "⟩
      [.elem ⟨⟨some nsCommon, "Name"⟩, [], [], some s, some "\n            "⟩ []]]

example : PlainText "me > you" ∧ ∃ t', (stix11 w0).update o0
      (stixDoc "1.1" [el nsTTP "Intended_Effect" [] [el nsCommon "Source" [] [] (some "me > you")]]) = .ok t' ∧
    t'.kids = [el nsTTP "Intended_Effect" [] [newSource "me > you"]] :=
  ⟨(xmlPlain_iff _).1 (by decide), ok_of_eval (by decide +kernel)⟩

/-- A 1.1 package with an ampersand in a source (in the file it is written `&amp;`). -/
def docMarkupSource : Node := stixDoc "1.1" [el nsTTP "Intended_Effect" [] [el nsCommon "Source" [] [] (some "AT&T")]]

/-- The XML text that is parsed for it: `&T` without a semicolon, which no XML parser accepts. -/
def markupXml : String :=
  "\n        <stixCommon:Source xmlns:stixCommon=\"http://stix.mitre.org/common-1\">\n            <stixCommon:Identity>\n                <stixCommon:Name>AT&T</stixCommon:Name>\n            </stixCommon:Identity>\n        </stixCommon:Source>\n        "

/-- C33 fails: with a parser that refuses the text made of it, a source with an ampersand makes the update fail. -/
theorem C33_markup_fails (w : World) (hw : w.parseXml markupXml = none) (o : Options) (t' : Node) :
    (stix11 w).update o docMarkupSource ≠ .ok t' := by
  intro h
  have h' : stix11Update w o docMarkupSource = .ok t' := h
  unfold stix11Update at h'
  simp only at h'
  split at h'
  · cases h'
  · next d hd =>
    unfold translateFields at hd
    simp only [stix11Cls, foldE] at hd
    split at hd
    · cases hd
    · next b hb =>
      have e : stixUpdateVersions (stix11Cls w) "2.1.1" "1.1.1" ((stix11Cls w).updateSchemalocs (stix11Cybox.updateSchemalocs docMarkupSource)) =
        stixUpdateVersions (stix11Cls w0) "2.1.1" "1.1.1" ((stix11Cls w0).updateSchemalocs (stix11Cybox.updateSchemalocs docMarkupSource)) := rfl
      have he : ∃ c ∈ (stixUpdateVersions (stix11Cls w0) "2.1.1" "1.1.1"
          ((stix11Cls w0).updateSchemalocs (stix11Cybox.updateSchemalocs docMarkupSource))).elems,
          (sourceParents.map (fun p => relIn p.1 p.2 "stixCommon" "Source")).any (fun a => a.selects Tables.stix11_nsmap c) = true ∧
          c.e.text = some "AT&T" := by decide +kernel
      obtain ⟨c, hc, hs, ht⟩ := he
      obtain ⟨n, hn⟩ := translate_custom_err hb c (by rw [← e] at hc; exact hc) hs
      have hx : translateCommonSource w c = fromstring w markupXml := by
        unfold translateCommonSource
        rw [show formatText c.e.text = "AT&T" by rw [ht]; rfl]
        simp only
        rw [show commonSourceXml "AT&T" = markupXml by decide +kernel, show xmlPlain "AT&T" = false by decide +kernel]
        rfl
      rw [hx] at hn
      unfold fromstring at hn
      rw [hw] at hn
      cases hn

example : w0.parseXml markupXml = none ∧ stepUpdate (stix11 w0) o0 false 0 docMarkupSource = .error .xmlSyntax ∧
    stepUpdate (stix11 w0) o0 true 0 docMarkupSource = .error .xmlSyntax := ⟨rfl, by decide +kernel⟩

/-- A 1.1 package with an empty source. -/
def docEmptySource : Node := stixDoc "1.1" [el nsTTP "Intended_Effect" [] [el nsCommon "Source" [] []]]

/-- C33 fails: an empty source is named `None`. -/
theorem C33_empty_fails : ∃ r, stepUpdate (stix11 w0) o0 false 0 docEmptySource = .ok r ∧
    r.1.doc.kids = [el nsTTP "Intended_Effect" [] [newSource "None"]] := ok_of_eval (by decide +kernel)

/-- A 1.1 package whose source has an attribute, a comment and text after the comment. -/
def docRestSource : Node :=
  stixDoc "1.1" [el nsTTP "Intended_Effect" [] [el nsCommon "Source" [at_ "id" "s"] [.other "why" (some " and you")] (some "me")]]

/-- C33 fails: the attribute and the text after the comment are lost. -/
theorem C33_rest_lost : ∃ r, stepUpdate (stix11 w0) o0 false 0 docRestSource = .ok r ∧
    r.1.doc.kids = [el nsTTP "Intended_Effect" [] [newSource "me"]] := ok_of_eval (by decide +kernel)

end Ramrod
