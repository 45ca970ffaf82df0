import Verif.Lemmas.Fields
import Verif.Props.Frame
import Verif.Props.Optional
import Verif.Props.Untrans
/-!
# Fields translated by the CybOX 2.0.1 step: C28, C29, C30
-/

namespace Ramrod

open Samples

/-! ## Statement: what happens before and after the translation -/

/-- Attributes changed before the fields are translated. -/
def preNames : List QName := ⟨some "http://www.w3.org/2001/XMLSchema-instance", "schemaLocation"⟩ :: cyboxVersionNames

/-- An element before the fields are translated: the same, apart from the schema locations and the version attributes,
unless it is an element of the Windows driver object, which changes its namespace and keeps the other attributes. -/
def PrepElem (e e' : Elem) : Prop :=
  (e.tag.ns ≠ some "http://cybox.mitre.org/objects#WinDriverObject-2" → SameData preNames e e' ∧ e'.text = e.text) ∧
  (e.tag.ns = some "http://cybox.mitre.org/objects#WinDriverObject-2" →
    e'.tag = ⟨some "http://cybox.mitre.org/objects#WinDriverObject-3", e.tag.name⟩ ∧
    e'.attrs.filter (fun a => decide (a.1 ∉ preNames)) = e.attrs.filter (fun a => decide (a.1 ∉ preNames)))

/-- The terms of the default vocabularies that some release corrected. -/
def correctedTerms : List (String × String) :=
  [("Anomoly Events", "Anomaly Events"), ("A/V", "AV"),
    ("Ideological - Anti-Establisment", "Ideological - Anti-Establishment"),
    ("Planning - Open-Source Intelligence (OSINT) Gethering", "Planning - Open-Source Intelligence (OSINT) Gathering"),
    ("Planning ", "Planning"), ("Policital", "Political"), ("Degredation", "Degradation"),
    ("Fraud Detection", "External - Fraud Detection")]

/-- An element in the vocabulary pass: the same unless it has a type; then the name, the tail, the declarations and the
other attributes are, and so is the text unless it is a term that was corrected. -/
def VocabElem (e e' : Elem) : Prop :=
  SameData vocabNames e e' ∧ (e.get? ⟨some "http://www.w3.org/2001/XMLSchema-instance", "type"⟩ = none → e' = e) ∧
    (e'.text = e.text ∨ ∃ p ∈ correctedTerms, e.text = some p.1 ∧ e'.text = some p.2)

/-- From the translated fields to the result: vocabularies, then the empty optional elements. -/
def Finished (o : Options) (L : Node → Ctx → Prop) (b t' : Node) : Prop :=
  ∃ d, Node.Rel VocabElem b d ∧ (o.removeOptionals = true → OptionalsGone L d t') ∧ (o.removeOptionals = false → t' = d) ∧
    (o.updateVocabularies = false → d = b)

/-! ## Statement: C28 -/

/-- An HTTP header field below the root. -/
def Header (name : String) (c : Ctx) : Prop :=
  c.anc ≠ [] ∧ c.e.tag = ⟨some "http://cybox.mitre.org/objects#HTTPSessionObject-2", name⟩

/-- `v` is the first URI value among the children of `c`. -/
def UriValue (c : Ctx) (v : Elem) : Prop :=
  ∃ (i : Nat) (ks : List Node), c.kids[i]? = some (.elem v ks) ∧ v.tag = ⟨some "http://cybox.mitre.org/objects#URIObject-2", "Value"⟩ ∧
    ∀ j < i, ∀ e es, c.kids[j]? = some (.elem e es) → e.tag ≠ ⟨some "http://cybox.mitre.org/objects#URIObject-2", "Value"⟩

/-- No attribute name occurs twice, as in all XML. -/
def DistinctNames (as : Attrs) : Prop := (as.map (·.1)).Nodup

/-- No attribute named `k` occurs twice. -/
def AtMostOnce (k : QName) (as : Attrs) : Prop := (as.filter (fun a => decide (a.1 = k))).length ≤ 1

/-- `n` is the field of `c` as a plain string: the text and the attributes of its URI value. -/
def StringOf (c : Ctx) (n : Node) : Prop :=
  ∃ v as, UriValue c v ∧ n = .elem ⟨c.e.tag, [], as, v.text, none⟩ [] ∧ (DistinctNames v.attrs → as = v.attrs) ∧
    (∀ a ∈ as, a ∈ v.attrs) ∧ ∀ k, AtMostOnce k v.attrs → Attrs.get? as k = v.get? k

/-- `n` is the field `c` with the data type, if it says one, changed to string. -/
def RefreshOf (c : Ctx) (n : Node) : Prop :=
  ∃ as, n = .elem ⟨c.e.tag, [], as, c.e.text, none⟩ [] ∧
    (DistinctNames c.e.attrs → as = c.e.attrs.map (fun a => if a.1 = ⟨none, "datatype"⟩ then (a.1, "string") else a)) ∧
    (∀ a ∈ as, a.1 ≠ ⟨none, "datatype"⟩ → a ∈ c.e.attrs) ∧
    ∀ k, k ≠ ⟨none, "datatype"⟩ → AtMostOnce k c.e.attrs → Attrs.get? as k = c.e.get? k

/-! ## Statement: C29 -/

/-- The misspelt names and the right ones. -/
def spelling : List (QName × QName) :=
  [(⟨some "http://cybox.mitre.org/objects#HTTPSessionObject-2", "X_Requested_For"⟩,
      ⟨some "http://cybox.mitre.org/objects#HTTPSessionObject-2", "X_Forwarded_For"⟩),
    (⟨some "http://cybox.mitre.org/objects#PacketObject-2", "Authenication_Data"⟩,
      ⟨some "http://cybox.mitre.org/objects#PacketObject-2", "Authentication_Data"⟩),
    (⟨some "http://cybox.mitre.org/objects#PacketObject-2", "Excapsulating_Security_Payload"⟩,
      ⟨some "http://cybox.mitre.org/objects#PacketObject-2", "Encapsulating_Security_Payload"⟩),
    (⟨some "http://cybox.mitre.org/objects#PacketObject-2", "Protol_Addr_Size"⟩,
      ⟨some "http://cybox.mitre.org/objects#PacketObject-2", "Proto_Addr_Size"⟩)]

/-- The right spelling of a name. -/
def respell (q : QName) : QName := ((spelling.find? (fun p => p.1 = q)).map (·.2)).getD q

/-- The elements below the root get the right names; nothing else changes. -/
def Respelt (t t' : Node) : Prop := t' = t.edit (fun c => if c.anc.isEmpty then c.e else { c.e with tag := respell c.e.tag })

/-! ## Statement: C30 -/

/-- A mailslot handle below the root with a handle among its children. -/
def TwoLevel (c : Ctx) : Prop :=
  c.anc ≠ [] ∧ c.e.tag = ⟨some "http://cybox.mitre.org/objects#WinMailslotObject-2", "Handle"⟩ ∧
    ∃ e ks, Node.elem e ks ∈ c.kids ∧ e.tag = ⟨some "http://cybox.mitre.org/objects#WinHandleObject-2", "Handle"⟩

/-- `n` is a handle inside `c`, called a mailslot handle. -/
def InnerHandle (c : Ctx) (n : Node) : Prop :=
  ∃ e ks, Node.elem e ks ∈ c.kids ∧ e.tag = ⟨some "http://cybox.mitre.org/objects#WinHandleObject-2", "Handle"⟩ ∧
    n = .elem { e with tag := ⟨some "http://cybox.mitre.org/objects#WinMailslotObject-2", "Handle"⟩ } ks

/-- `n` is the handle that is the only child node of `c`, called a mailslot handle. -/
def OnlyHandle (c : Ctx) (n : Node) : Prop :=
  ∃ e ks, c.kids = [.elem e ks] ∧ e.tag = ⟨some "http://cybox.mitre.org/objects#WinHandleObject-2", "Handle"⟩ ∧
    n = .elem { e with tag := ⟨some "http://cybox.mitre.org/objects#WinMailslotObject-2", "Handle"⟩ } ks

/-- No handle is inside a handle. -/
def NoNestedHandle (t : Node) : Prop :=
  ∀ c ∈ t.elems, c.e.tag = ⟨some "http://cybox.mitre.org/objects#WinHandleObject-2", "Handle"⟩ →
    Node.Alls (fun e => e.tag ≠ ⟨some "http://cybox.mitre.org/objects#WinHandleObject-2", "Handle"⟩) c.kids

/-! ## Helpers: stages -/

theorem rel_refl {P : Elem → Elem → Prop} (hP : ∀ e, P e e) (t : Node) : Node.Rel P t t := by
  have := rel_mapCtx (F := fun c => c.e) (P := P) (fun c => hP c.e) [] [] [] t
  rwa [mapCtx_id] at this

theorem sameData_keep {L : List QName} {e e' : Elem} (h : SameData L e e') : e'.tag = e.tag := h.1

theorem prep_pass (m : List (String × String)) (sel : List XAlt) (t : Node) :
    Node.Rel PrepElem t (cybox201UpdateVersions (cybox201Cls m sel)
      ((cybox201Cls m sel).updateSchemalocs ((cybox201Cls m sel).updateNamespaces [] t))) := by
  rw [cybox201Versions_eq, updateSchemalocs_eq, updateNamespaces_eq]
  have step : ∀ a b c : Elem, PrepElem a b → (SameData preNames b c ∧ c.text = b.text) → PrepElem a c := by
    rintro a b c ⟨h1, h2⟩ ⟨h3, h4⟩
    exact ⟨fun h => ⟨(h1 h).1.trans h3, h4.trans (h1 h).2⟩, fun h => ⟨h3.1.trans (h2 h).1, h3.2.2.2.trans (h2 h).2⟩⟩
  refine Node.Rel.comp step (Node.Rel.comp step (rel_mapCtx ?_ _ _ _ _) (rel_mapCtx ?_ _ _ _ _)) (rel_mapCtx ?_ _ _ _ _)
  · intro c
    unfold nsEdit
    split
    · next h =>
      unfold Cls.nsUpdated at h
      split at h
      · cases h
      · next n hn =>
        have hn' : n = "http://cybox.mitre.org/objects#WinDriverObject-2" := by
          simp only [cybox201Cls, Tables.cybox201_updateNsMap, assoc] at h
          split at h
          · next e => exact e.symm
          · cases h
        subst hn'
        refine ⟨fun h => absurd hn h, fun _ => ?_⟩
        simp only [Cls.updateNsmapElem, Cls.remappedTag, hn, cybox201Cls, Tables.cybox201_updateNsMap, assoc,
          Option.map_some, if_true, Option.getD_some, and_self]
    · next h =>
      refine ⟨fun _ => ⟨SameData.refl _ _, rfl⟩, fun hn => absurd ?_ h⟩
      unfold Cls.nsUpdated
      rw [hn]
      rfl
  · intro c
    refine ⟨sameData_schemaloc (by decide) _ c, ?_⟩
    unfold schemalocEdit
    split
    · unfold Cls.updateSchemalocsElem
      split <;> rfl
    · rfl
  · intro c
    refine ⟨sameData_version (fun e => ?_) c, ?_⟩
    · refine ((SameData.set (k := attrMajor) (by decide) "2" e).trans (SameData.set (k := attrMinor) (by decide) "1" _)).trans
        ⟨rfl, rfl, rfl, ?_⟩
      show List.filter _ (List.filter _ _) = _
      rw [List.filter_filter]
      congr 1
      funext a
      by_cases ha : a.1 = attrUpdate
      · rw [ha]; decide
      · simp [ha]
    · unfold versionEdit
      split <;> rfl

theorem assoc_pair {l : List (String × String)} {k v : String} (h : assoc l k = some v) : (k, v) ∈ l := by
  induction l with
  | nil => simp [assoc] at h
  | cons x xs ih =>
    obtain ⟨a, b⟩ := x
    simp only [assoc] at h
    split at h
    · next e =>
      simp only [Option.some.injEq] at h
      rw [e, h]
      exact List.mem_cons_self ..
    · exact List.mem_cons_of_mem _ (ih h)

theorem updateNode_text {v : Vocab} (hv : ∀ p ∈ v.terms, p ∈ correctedTerms) {e e' : Elem} (h : v.updateNode e = .ok e') :
    e'.text = e.text ∨ ∃ p ∈ correctedTerms, e.text = some p.1 ∧ e'.text = some p.2 := by
  unfold Vocab.updateNode at h
  split at h
  · cases h
  · next alias _ _ =>
    simp only at h
    split at h
    · cases h
    · next e2 he2 =>
      have t2 : e2.text = e.text := by
        split at he2
        · split at he2
          · cases he2; rfl
          · cases he2
        · cases he2; rfl
      have t3 : (if e2.has attrVocabName then e2.set attrVocabName v.name else e2).text = e.text := by
        split
        · exact t2
        · exact t2
      split at h
      · next value hval =>
        rw [t3] at hval
        split at h
        · next new hnew => cases h; exact Or.inr ⟨_, hv _ (assoc_pair hnew), hval, rfl⟩
        · cases h; exact Or.inl t3
      · cases h; exact Or.inl t3

theorem vocab_untyped {v : Vocab} (hv : ∀ p ∈ v.terms, p ∈ correctedTerms) {t t' : Node} (h : v.update t = .ok t') :
    Node.Rel VocabElem t t' := by
  rw [(vocabUpdate_eq h).1]
  apply rel_mapCtx
  intro c
  refine ⟨sameData_vocab (by decide) (by decide) (by decide) v c, fun hn => ?_, ?_⟩
  · unfold Vocab.edit
    split
    · next hh =>
      exfalso
      unfold Vocab.hit at hh
      simp only [Bool.and_eq_true, Elem.has_eq] at hh
      rw [show c.e.get? tagXsiType = none from hn] at hh
      simp at hh
    · rfl
  · unfold Vocab.edit
    split
    · split
      · next e' he => exact updateNode_text hv he
      · exact Or.inl rfl
    · exact Or.inl rfl

theorem corrected_once : ∀ p ∈ correctedTerms, ∀ q ∈ correctedTerms, p.2 ≠ q.1 := by decide

theorem vocabElem_trans : ∀ a b c : Elem, VocabElem a b → VocabElem b c → VocabElem a c := by
  rintro a b c ⟨h1, h2, h5⟩ ⟨h3, h4, h6⟩
  refine ⟨h1.trans h3, fun h => ?_, ?_⟩
  · have := h2 h
    subst this
    exact h4 h
  · rcases h5 with h5 | ⟨p, hp, p1, p2⟩
    · rw [h5] at h6; exact h6
    · rcases h6 with h6 | ⟨q, hq, q1, _⟩
      · exact Or.inr ⟨p, hp, p1, h6.trans p2⟩
      · rw [p2] at q1
        exact absurd (Option.some.inj q1) (corrected_once p hp q hq)

theorem vocabElem_refl (e : Elem) : VocabElem e e := ⟨SameData.refl _ e, fun _ => rfl, Or.inl rfl⟩

theorem vocabs_rel {vs : List Vocab} (hv : ∀ v ∈ vs, ∀ p ∈ v.terms, p ∈ correctedTerms) {t t' : Node}
    (h : updateVocabs vs t = .ok t') : Node.Rel VocabElem t t' := by
  unfold updateVocabs at h
  exact foldE_inv (Node.Rel VocabElem t) vs t t'
    (fun s v s' hm hs hu => Node.Rel.comp vocabElem_trans hs (vocab_untyped (hv v hm) hu)) (rel_refl vocabElem_refl t) h

theorem vocabsIf_rel {b : Bool} {vs : List Vocab} (hv : ∀ v ∈ vs, ∀ p ∈ v.terms, p ∈ correctedTerms) {t t' : Node}
    (h : (if b then updateVocabs vs t else .ok t) = .ok t') : Node.Rel VocabElem t t' := by
  cases b with
  | true => exact vocabs_rel hv h
  | false =>
    simp only [Bool.false_eq_true, if_false, Except.ok.injEq] at h
    subst h
    exact rel_refl vocabElem_refl t

theorem vocabsIf_off {o : Options} {vs : List Vocab} {t t' : Node}
    (h : (if o.updateVocabularies then updateVocabs vs t else .ok t) = .ok t') (ho : o.updateVocabularies = false) : t' = t := by
  simp only [ho, Bool.false_eq_true, if_false, Except.ok.injEq] at h
  exact h.symm

/-- The document before the fields are translated. -/
def cybox201Prep (m : List (String × String)) (sel : List XAlt) (t : Node) : Node :=
  cybox201UpdateVersions (cybox201Cls m sel) ((cybox201Cls m sel).updateSchemalocs ((cybox201Cls m sel).updateNamespaces [] t))

/-- The stages of the 2.0.1 step. -/
theorem cybox201_stages {m : List (String × String)} {sel : List XAlt} {o : Options} {t t' : Node}
    (h : cybox201Update (cybox201Cls m sel) o t = .ok t') :
    ∃ b, translateFields cybox201Translatable (cybox201Prep m sel t) = .ok b ∧ Finished o (Named optional21) b t' := by
  unfold cybox201Update at h
  simp only at h
  split at h
  · cases h
  · next b hb =>
    split at h
    · cases h
    · next d hd =>
      refine ⟨b, hb, d, vocabsIf_rel (by simp only [cybox201Cls]; decide) hd, fun ho => ?_, fun ho => ?_, vocabsIf_off hd⟩
      · rw [if_pos ho] at h
        have e : (cybox201Cls m sel).optionals = cybox201Optionals := rfl
        rw [e, optionals_pass] at h
        cases h
        exact gone_named d
      · rw [if_neg (by simp [ho])] at h
        cases h
        rfl

theorem cybox201_stages_plain {m : List (String × String)} {sel : List XAlt} {o : Options} {t t' : Node}
    (h : cybox201Update (cybox201Cls m sel) o t = .ok t') (hv : o.updateVocabularies = false) (ho : o.removeOptionals = false) :
    ∃ a b, Node.Rel PrepElem t a ∧ translateFields cybox201Translatable a = .ok b ∧ t' = b := by
  unfold cybox201Update at h
  simp only [hv, ho, Bool.false_eq_true, if_false] at h
  split at h
  · cases h
  · next b hb =>
    cases h
    exact ⟨_, _, prep_pass m sel t, hb, rfl⟩

theorem prep_tag {e e' : Elem} (h : PrepElem e e') {q : QName} (ht : e'.tag = q)
    (hq : q.ns ≠ some "http://cybox.mitre.org/objects#WinDriverObject-3") : e.tag = q := by
  rcases Classical.em (e.tag.ns = some "http://cybox.mitre.org/objects#WinDriverObject-2") with hn | hn
  · rw [(h.2 hn).1] at ht
    subst ht
    exact absurd rfl hq
  · rw [← (h.1 hn).1.1]; exact ht

/-! ## Helpers: C28 -/

theorem find_childCtxs {c : Ctx} {p : Elem → Bool} : ∀ {l : List Node} {n : Nat} {k : Ctx},
    (childCtxs c n l).find? (fun k => p k.e) = some k → ∃ i : Nat, l[i]? = some (Node.elem k.e k.kids) ∧ p k.e = true ∧
      ∀ j < i, ∀ e es, l[j]? = some (Node.elem e es) → p e = false
  | [], _, _, h => by simp [childCtxs] at h
  | .other a b :: l, n, k, h => by
    simp only [childCtxs] at h
    obtain ⟨i, h1, h2, h3⟩ := find_childCtxs h
    refine ⟨i + 1, by simpa using h1, h2, ?_⟩
    intro j hj e es he
    cases j with
    | zero => simp at he
    | succ j => exact h3 j (by omega) e es (by simpa using he)
  | .elem e0 ks0 :: l, n, k, h => by
    simp only [childCtxs, List.find?_cons] at h
    split at h
    · next hp =>
      cases h
      exact ⟨0, by simp, hp, fun j hj => absurd hj (Nat.not_lt_zero _)⟩
    · next hp =>
      obtain ⟨i, h1, h2, h3⟩ := find_childCtxs h
      refine ⟨i + 1, by simpa using h1, h2, ?_⟩
      intro j hj e es he
      cases j with
      | zero =>
        simp only [List.getElem?_cons_zero, Option.some.injEq, Node.elem.injEq] at he
        rw [← he.1]; exact hp
      | succ j => exact h3 j (by omega) e es (by simpa using he)

theorem mem_attrs_set {as : Attrs} {k : QName} {v : String} {a : QName × String} (h : a ∈ Attrs.set as k v) :
    a ∈ as ∨ a = (k, v) := by
  induction as with
  | nil => simpa [Attrs.set] using h
  | cons x xs ih =>
    obtain ⟨k', v'⟩ := x
    simp only [Attrs.set] at h
    split at h
    · next hk =>
      subst hk
      rcases List.mem_cons.1 h with h | h
      · exact Or.inr h
      · exact Or.inl (by simp [h])
    · rcases List.mem_cons.1 h with h | h
      · exact Or.inl (by simp [h])
      · rcases ih h with h | h
        · exact Or.inl (by simp [h])
        · exact Or.inr h

theorem mem_updateAll {a : QName × String} : ∀ {bs as : Attrs}, a ∈ Attrs.updateAll as bs → a ∈ as ∨ a ∈ bs
  | [], as, h => Or.inl h
  | (k, v) :: bs, as, h => by
    have h' : a ∈ Attrs.updateAll (Attrs.set as k v) bs := by simpa only [Attrs.updateAll, List.foldl_cons] using h
    rcases mem_updateAll h' with h' | h'
    · rcases mem_attrs_set h' with h' | h'
      · exact Or.inl h'
      · exact Or.inr (by simp [h'])
    · exact Or.inr (by simp [h'])

theorem get_none_of_filter {k : QName} : ∀ {as : Attrs}, as.filter (fun a => decide (a.1 = k)) = [] → Attrs.get? as k = none
  | [], _ => rfl
  | (a, b) :: as, h => by
    simp only [Attrs.get?]
    by_cases ha : a = k
    · simp [ha] at h
    · rw [if_neg ha]
      refine get_none_of_filter ?_
      simpa [List.filter_cons, ha] using h

theorem get_updateAll_once {k : QName} : ∀ {bs as : Attrs}, AtMostOnce k bs →
    Attrs.get? (Attrs.updateAll as bs) k = (Attrs.get? bs k).or (Attrs.get? as k)
  | [], as, _ => by simp [Attrs.updateAll, Attrs.get?]
  | (a, b) :: bs, as, h => by
    have hs : Attrs.updateAll as ((a, b) :: bs) = Attrs.updateAll (Attrs.set as a b) bs := by
      simp only [Attrs.updateAll, List.foldl_cons]
    unfold AtMostOnce at h
    by_cases ha : a = k
    · subst ha
      have h0 : bs.filter (fun x => decide (x.1 = a)) = [] := by
        simp only [List.filter_cons, decide_true, if_true, List.length_cons] at h
        exact List.length_eq_zero_iff.1 (by omega)
      rw [hs, get_updateAll_once (by unfold AtMostOnce; rw [h0]; simp), get_none_of_filter h0, attrs_get_set]
      simp [Attrs.get?]
    · simp only [List.filter_cons, ha, decide_false, Bool.false_eq_true, if_false] at h
      rw [hs, get_updateAll_once h, attrs_get_set, if_neg ha]
      simp only [Attrs.get?, if_neg ha]

theorem value_field {c : Ctx} {n : Node}
    (h : translateValue Tables.cybox201_nsmap (some ⟨"URIObj", "Value"⟩) none true [] c = .ok n) : StringOf c n := by
  unfold translateValue valueNode at h
  simp only at h
  cases hf : (childCtxs c 0 c.kids).find? (fun k => decide (k.e.tag = XName.resolve Tables.cybox201_nsmap ⟨"URIObj", "Value"⟩)) with
  | none => rw [hf] at h; cases h
  | some k =>
    rw [hf] at h
    simp only [Except.ok.injEq] at h
    obtain ⟨i, h1, h2, h3⟩ := find_childCtxs (p := fun e => decide (e.tag = XName.resolve Tables.cybox201_nsmap ⟨"URIObj", "Value"⟩)) hf
    have hr : XName.resolve Tables.cybox201_nsmap ⟨"URIObj", "Value"⟩ =
      ⟨some "http://cybox.mitre.org/objects#URIObject-2", "Value"⟩ := by decide +kernel
    rw [hr] at h2 h3
    refine ⟨k.e, Attrs.updateAll [] k.e.attrs, ⟨i, k.kids, h1, of_decide_eq_true h2, fun j hj e es he =>
      of_decide_eq_false (h3 j hj e es he)⟩, ?_, fun hd => ?_, fun a ha => ?_, fun a ha => ?_⟩
    · rw [← h]; rfl
    · rw [attrs_updateAll_nodup _ _ (by simpa [DistinctNames] using hd)]; rfl
    · rcases mem_updateAll ha with h' | h'
      · simp at h'
      · exact h'
    · rw [get_updateAll_once ha]
      simp [Attrs.get?, Elem.get?]

theorem set_map {k : QName} {v : String} : ∀ {as : Attrs}, (as.map (·.1)).Nodup → Attrs.has as k = true →
    Attrs.set as k v = as.map (fun a => if a.1 = k then (a.1, v) else a)
  | [], _, h => by simp [Attrs.has, Attrs.get?] at h
  | (a, b) :: as, hn, h => by
    simp only [List.map_cons, List.nodup_cons] at hn
    simp only [Attrs.set, List.map_cons]
    by_cases hk : a = k
    · subst hk
      rw [if_pos rfl, if_pos rfl]
      congr 1
      symm
      have : ∀ x ∈ as, (if x.1 = a then (x.1, v) else x) = x := fun x hx => by
        rw [if_neg]
        intro e
        exact hn.1 (List.mem_map.2 ⟨x, hx, e⟩)
      rw [List.map_congr_left this, List.map_id']
    · rw [if_neg hk, if_neg hk, set_map hn.2]
      simp only [Attrs.has, Attrs.get?, if_neg hk] at h
      exact h

theorem refresh_field {c : Ctx} {n : Node}
    (h : translateValue Tables.cybox201_nsmap none none true [(.plain "datatype", "string")] c = .ok n) : RefreshOf c n := by
  unfold translateValue valueNode at h
  simp only [Except.ok.injEq] at h
  refine ⟨_, h.symm, fun hd => ?_, fun a ha hne => ?_, fun a hne ha => ?_⟩
  rotate_left
  · simp only [if_true, overrideAttrs] at ha
    have hu : ∀ {b}, b ∈ Attrs.updateAll [] c.e.attrs → b ∈ c.e.attrs := fun hb => by
      rcases mem_updateAll hb with h' | h'
      · simp at h'
      · exact h'
    split at ha
    · rcases mem_attrs_set ha with h' | h'
      · exact hu h'
      · subst h'; exact absurd rfl hne
    · exact hu ha
  · have hg : Attrs.get? (Attrs.updateAll [] c.e.attrs) a = c.e.get? a := by
      rw [get_updateAll_once ha]
      simp [Attrs.get?, Elem.get?]
    simp only [if_true, overrideAttrs]
    split
    · rw [attrs_get_set, if_neg (show QName.plain "datatype" ≠ a from Ne.symm hne), hg]
    · exact hg
  simp only [if_true, overrideAttrs]
  rw [attrs_updateAll_nodup _ _ (by simpa [DistinctNames] using hd), List.nil_append]
  split
  · next hh => exact set_map hd hh
  · next hh =>
    symm
    have : ∀ x ∈ c.e.attrs, (if x.1 = ⟨none, "datatype"⟩ then (x.1, "string") else x) = x := by
      intro x hx
      rw [if_neg]
      intro e
      apply hh
      have : ∀ as : Attrs, x ∈ as → Attrs.has as (.plain "datatype") = true := by
        intro as
        induction as with
        | nil => simp
        | cons y ys ih =>
          obtain ⟨a, b⟩ := y
          intro hm
          unfold Attrs.has at ih ⊢
          simp only [Attrs.get?]
          split
          · rfl
          · next hne =>
            rcases List.mem_cons.1 hm with h' | h'
            · subst h'; exact absurd e hne
            · exact ih h'
      exact this _ hx
    rw [List.map_congr_left this, List.map_id']

/-! ## Helpers: C29 -/

theorem respell_eq : respell = ren1 (spelling[3].1) (spelling[3].2) ∘ ren1 (spelling[2].1) (spelling[2].2) ∘
    ren1 (spelling[1].1) (spelling[1].2) ∘ ren1 (spelling[0].1) (spelling[0].2) := by
  funext q
  by_cases h0 : q = spelling[0].1
  · subst h0; decide
  · by_cases h1 : q = spelling[1].1
    · subst h1; decide
    · by_cases h2 : q = spelling[2].1
      · subst h2; decide
      · by_cases h3 : q = spelling[3].1
        · subst h3; decide
        · simp only [Function.comp, ren1, if_neg h0, if_neg h1, if_neg h2, if_neg h3]
          unfold respell
          have : spelling.find? (fun p => decide (p.1 = q)) = none := by
            rw [List.find?_eq_none]
            intro p hp
            simp only [spelling, List.mem_cons, List.not_mem_nil, or_false] at hp
            simp only [decide_eq_true_eq]
            rcases hp with rfl | rfl | rfl | rfl
            · exact fun e => h0 e.symm
            · exact fun e => h1 e.symm
            · exact fun e => h2 e.symm
            · exact fun e => h3 e.symm
          rw [this]; rfl

/-- All translations of the 2.0.1 step. -/
theorem fields_201 {a b : Node} (h : translateFields cybox201Translatable a = .ok b) :
    ∃ c d e f, Replaced (Header "DNT") StringOf a c ∧ Replaced (Header "Vary") StringOf c d ∧
      Replaced (Header "Refresh") RefreshOf d e ∧ Respelt e f ∧ Replaced TwoLevel InnerHandle f b := by
  unfold translateFields cybox201Translatable at h
  simp only [foldE] at h
  split at h
  · cases h
  · next c hc =>
    split at h
    · cases h
    · next d hd =>
      split at h
      · cases h
      · next e he =>
        simp only [transXRequestedFor, transAuthData, transEncapsulating, transProtoAddrSize, translate_renamed] at h
        split at h
        · cases h
        · next b' hb =>
          cases h
          simp only [edit_ren] at hb
          refine ⟨c, d, e, _, ?_, ?_, ?_, rfl, ?_⟩
          · refine (translate_custom hc).mono (fun x _ => ?_) (fun x _ n _ hq => value_field hq)
            refine Iff.trans ?_ rel_selects.symm
            unfold Header
            rw [show XName.resolve transDNT.nsmap ⟨"HTTPSessionObj", "DNT"⟩ =
              ⟨some "http://cybox.mitre.org/objects#HTTPSessionObject-2", "DNT"⟩ by decide +kernel]
          · refine (translate_custom hd).mono (fun x _ => ?_) (fun x _ n _ hq => value_field hq)
            refine Iff.trans ?_ rel_selects.symm
            unfold Header
            rw [show XName.resolve transVary.nsmap ⟨"HTTPSessionObj", "Vary"⟩ =
              ⟨some "http://cybox.mitre.org/objects#HTTPSessionObject-2", "Vary"⟩ by decide +kernel]
          · refine (translate_custom he).mono (fun x _ => ?_) (fun x _ n _ hq => refresh_field hq)
            refine Iff.trans ?_ rel_selects.symm
            unfold Header
            rw [show XName.resolve transRefresh.nsmap ⟨"HTTPSessionObj", "Refresh"⟩ =
              ⟨some "http://cybox.mitre.org/objects#HTTPSessionObject-2", "Refresh"⟩ by decide +kernel]
          · have hm := translate_parent hb
            rw [show XName.resolve Tables.cybox201_nsmap ⟨"WinMailslotObj", "Handle"⟩ =
                ⟨some "http://cybox.mitre.org/objects#WinMailslotObject-2", "Handle"⟩ by decide +kernel,
              show XName.resolve Tables.cybox201_nsmap ⟨"WinHandleObj", "Handle"⟩ =
                ⟨some "http://cybox.mitre.org/objects#WinHandleObject-2", "Handle"⟩ by decide +kernel] at hm
            have hf : (fun c : Ctx => if c.anc.isEmpty then c.e else { c.e with tag := respell c.e.tag }) = renBelow respell := rfl
            rw [hf, respell_eq]
            rw [show XName.resolve Tables.cybox201_nsmap ⟨"HTTPSessionObj", "X_Requested_For"⟩ = spelling[0].1 by decide +kernel,
              show XName.resolve Tables.cybox201_nsmap ⟨"PacketObj", "Authenication_Data"⟩ = spelling[1].1 by decide +kernel,
              show XName.resolve Tables.cybox201_nsmap ⟨"PacketObj", "Excapsulating_Security_Payload"⟩ = spelling[2].1 by decide +kernel,
              show XName.resolve Tables.cybox201_nsmap ⟨"PacketObj", "Protol_Addr_Size"⟩ = spelling[3].1 by decide +kernel] at hm
            exact hm

/-! ## Helpers: names that are left -/

/-- Not a misspelt name. -/
def WellSpelt (e : Elem) : Prop := e.tag ∉ spelling.map (·.1)

theorem respell_well (q : QName) : respell q ∉ spelling.map (·.1) := by
  by_cases h : q ∈ spelling.map (·.1)
  · have : ∀ q ∈ spelling.map (·.1), respell q ∉ spelling.map (·.1) := by decide +kernel
    exact this q h
  · have : spelling.find? (fun p => decide (p.1 = q)) = none := by
      rw [List.find?_eq_none]
      intro p hp
      simp only [decide_eq_true_eq]
      exact fun e => h (List.mem_map.2 ⟨p, hp, e⟩)
    unfold respell
    rw [this]
    exact h

theorem respell_inv {q r : QName} (h : respell q = r) (hr : ∀ p ∈ spelling, p.2 ≠ r) : q = r := by
  unfold respell at h
  cases hf : spelling.find? (fun p => decide (p.1 = q)) with
  | none => rw [hf] at h; exact h
  | some p =>
    rw [hf] at h
    exact absurd h (hr p (List.mem_of_find?_eq_some hf))

theorem finished_all {o : Options} {L : Node → Ctx → Prop} {b t' : Node} (h : Finished o L b t') {A : Elem → Prop}
    (hA : ∀ e e', VocabElem e e' → A e → A e') (hb : b.All A) : t'.All A := by
  obtain ⟨d, h1, h2, h3, _⟩ := h
  have hd := rel_all hA h1 hb
  cases ho : o.removeOptionals with
  | false => rw [h3 ho]; exact hd
  | true =>
    obtain ⟨S, _, rfl⟩ := h2 ho
    rw [all_elems]
    intro c' hc'
    obtain ⟨c, hc, he, _⟩ := mem_without hc'
    rw [he]; exact all_elems.1 hd c hc

theorem prep_root {t a : Node} {A : QName → Prop}
    (hA : ∀ n, A ⟨some "http://cybox.mitre.org/objects#WinDriverObject-3", n⟩) (h : Node.Rel PrepElem t a)
    (hr : ∀ e, t.root? = some e → A e.tag) : ∀ e, a.root? = some e → A e.tag := by
  intro e' he'
  cases a with
  | other _ _ => cases he'
  | elem a0 ks =>
    cases he'
    cases t with
    | other _ _ => simp only [Node.Rel] at h
    | elem e0 ks0 =>
      simp only [Node.Rel] at h
      rcases Classical.em (e0.tag.ns = some "http://cybox.mitre.org/objects#WinDriverObject-2") with hn | hn
      · rw [(h.1.2 hn).1]; exact hA _
      · rw [(h.1.1 hn).1.1]; exact hr e0 rfl

theorem elems_root {t : Node} {c : Ctx} (hc : c ∈ t.elems) (ha : c.anc = []) : t.root? = some c.e := by
  cases t with
  | other _ _ => simp [Node.elems, Node.walk] at hc
  | elem e ks =>
    rw [mem_elems_iff (.elem e ks) c e ks rfl] at hc
    rcases hc with rfl | hc
    · rfl
    · exact absurd ha (descs_anc_ne _ hc)

theorem respelt_all {e f : Node} (h : Respelt e f) (hr : ∀ x, e.root? = some x → WellSpelt x) : f.All WellSpelt := by
  unfold Respelt at h
  subst h
  rw [all_elems]
  intro c' hc'
  obtain ⟨c, hc, _, he, _⟩ := mem_edit hc'
  rw [he]
  split
  · next ha => exact hr _ (elems_root hc (by simpa using ha))
  · exact respell_well _

theorem two_level_all {f b : Node} (h : Replaced TwoLevel InnerHandle f b) (hf : f.All WellSpelt) : b.All WellSpelt := by
  refine h.all hf ?_
  rintro c n hc ⟨e, ks, hm, _, rfl⟩
  have hk := alls_iff.1 hc.2 _ hm
  exact ⟨show _ ∉ _ by simp [spelling], hk.2⟩

theorem cybox201_spelling {m : List (String × String)} {sel : List XAlt} {o : Options} {t t' : Node}
    (h : cybox201Update (cybox201Cls m sel) o t = .ok t') (hr : ∀ e, t.root? = some e → WellSpelt e) : t'.All WellSpelt := by
  obtain ⟨b, h2, h3⟩ := cybox201_stages h
  have h1 := prep_pass m sel t
  obtain ⟨c, d, e, f, g1, g2, g3, g4, g5⟩ := fields_201 h2
  have ra := prep_root (A := fun q => q ∉ spelling.map Prod.fst) (fun n => by
    simp [spelling]) h1 hr
  have re : ∀ x, e.root? = some x → WellSpelt x := by
    rw [g3.root, g2.root, g1.root]; exact ra
  exact finished_all h3 (fun e e' hv he => by unfold WellSpelt at he ⊢; rw [hv.1.1]; exact he) (two_level_all g5 (respelt_all g4 re))

/-! ## Helpers: C30 -/

/-- A two-level handle has one child node. -/
def Single (t : Node) : Prop := ∀ c ∈ t.elems, TwoLevel c → c.kids.length = 1

theorem prep_ne {e e' : Elem} (h : PrepElem e e') {n : String} (hn : e.tag ≠ ⟨some "http://cybox.mitre.org/objects#WinHandleObject-2", n⟩) :
    e'.tag ≠ ⟨some "http://cybox.mitre.org/objects#WinHandleObject-2", n⟩ := fun h' => hn (prep_tag h h' (by simp))

theorem prep_handles {t a : Node} (h : Node.Rel PrepElem t a) :
    (Single t → Single a) ∧ (NoNestedHandle t → NoNestedHandle a) := by
  constructor
  · intro hs c' hc' ⟨x1, x2, e, ks, x3, x4⟩
    obtain ⟨c, hc, _, hl, hp, hk⟩ := rel_elems h hc'
    have hne : c.anc ≠ [] := fun e => x1 (List.eq_nil_of_length_eq_zero (by rw [hl, e]; rfl))
    obtain ⟨e0, ks0, y1, y2⟩ := rels_mem hk x3
    rw [rels_length hk]
    exact hs c hc ⟨hne, prep_tag hp x2 (by decide), e0, ks0, y1, prep_tag y2 x4 (by decide)⟩
  · intro hs c' hc' ht
    obtain ⟨c, hc, _, _, hp, hk⟩ := rel_elems h hc'
    exact rels_alls (A := fun e => e.tag ≠ ⟨some "http://cybox.mitre.org/objects#WinHandleObject-2", "Handle"⟩)
      (fun _ _ h h' => prep_ne h h') hk (hs c hc (prep_tag hp ht (by decide)))

theorem header_handles {name : String} {Q : Ctx → Node → Prop} {a b : Node} (h : Replaced (Header name) Q a b)
    (hq : ∀ c n, Q c n → ∃ as tx, n = .elem ⟨c.e.tag, [], as, tx, none⟩ []) :
    (Single a → Single b) ∧ (NoNestedHandle a → NoNestedHandle b) := by
  have new : ∀ c n env0 c', Q c n → c' ∈ n.walk c.pos env0 c.anc → c'.kids = [] := by
    intro c n env0 c' hn hw
    obtain ⟨as, tx, rfl⟩ := hq c n hn
    simp only [Node.walk, Node.walks, List.mem_singleton] at hw
    rw [hw]
  constructor
  · intro hs c' hc' ⟨x1, x2, e, ks, x3, x4⟩
    rcases h.elems hc' with ⟨c, hc, he, _, ha, _, _, hl, hk, _⟩ | ⟨c, _, _, _, n, env0, hn, _, hw⟩
    · obtain ⟨i, e0, ks0, y1, y2⟩ := hk e ks x3
      rcases y2 with ⟨rfl, _⟩ | ⟨y2, y3⟩
      · rw [hl]
        exact hs c hc ⟨ha ▸ x1, he ▸ x2, e, ks0, List.mem_of_getElem? y1, x4⟩
      · obtain ⟨as, tx, y4⟩ := hq _ _ y3
        cases y4
        simp only at x4
        rw [y2.2] at x4
        simp at x4
    · rw [new c n env0 c' hn hw] at x3; simp at x3
  · intro hs c' hc' ht
    rcases h.elems hc' with ⟨c, hc, he, _, _, _, _, _, _, hall⟩ | ⟨c, _, _, _, n, env0, hn, _, hw⟩
    · refine hall _ (hs c hc (he ▸ ht)) ?_
      intro d _ n hd hn hP
      obtain ⟨as, tx, rfl⟩ := hq d n hn
      exact ⟨hP.1, by simp [Node.Alls]⟩
    · rw [new c n env0 c' hn hw]; simp [Node.Alls]

theorem respelt_handles {e f : Node} (h : Respelt e f) :
    (Single e → Single f) ∧ (NoNestedHandle e → NoNestedHandle f) := by
  unfold Respelt at h
  subst h
  constructor
  · intro hs c' hc' ⟨x1, x2, e, ks, x3, x4⟩
    obtain ⟨c, hc, _, he, hl, hk⟩ := mem_edit hc'
    have hne : c.anc ≠ [] := fun e => x1 (List.eq_nil_of_length_eq_zero (by rw [hl, e]; rfl))
    rw [he, if_neg (by simpa using hne)] at x2
    rw [hk] at x3 ⊢
    obtain ⟨j, e0, ks0, y1, y2⟩ := mapCtxs_mem x3
    simp only [List.isEmpty_cons, Bool.false_eq_true, if_false] at y2
    rw [y2] at x4
    rw [mapCtxs_count]
    exact hs c hc ⟨hne, respell_inv x2 (by decide +kernel), e0, ks0, List.mem_of_getElem? y1, respell_inv x4 (by decide +kernel)⟩
  · intro hs c' hc' ht
    obtain ⟨c, hc, _, he, hl, hk⟩ := mem_edit hc'
    rw [hk]
    refine all_mapCtxs c.kids (hs c hc ?_) ?_
    · rw [he] at ht
      split at ht
      · exact ht
      · exact respell_inv ht (by decide +kernel)
    · intro d _ hd
      split
      · exact hd
      · exact fun h => hd (respell_inv h (by decide +kernel))

theorem handles_gone {f b : Node} (h : Replaced TwoLevel InnerHandle f b) (hn : NoNestedHandle f) :
    ∀ c ∈ b.elems, ¬ TwoLevel c := by
  intro c' hc' ⟨x1, x2, e, ks, x3, x4⟩
  rcases h.elems hc' with ⟨c, hc, he, _, ha, _, hs, hl, hk, _⟩ | ⟨c, hc, _, _, n, env0, ⟨e1, ks1, y1, y2, rfl⟩, _, hw⟩
  · obtain ⟨i, e0, ks0, y1, y2⟩ := hk e ks x3
    rcases y2 with ⟨rfl, _⟩ | ⟨y2, _, _, _, _, y3⟩
    · exact hs (ha ▸ x1) ⟨ha ▸ x1, he ▸ x2, e, ks0, List.mem_of_getElem? y1, x4⟩
    · cases y3
      simp at x4
  · obtain ⟨i, hi⟩ := List.mem_iff_getElem?.1 y1
    have hall := hn _ (walk_child f c hc i e1 ks1 hi) y2
    have : (Node.elem { e1 with tag := ⟨some "http://cybox.mitre.org/objects#WinMailslotObject-2", "Handle"⟩ } ks1).All
      (fun e => e.tag ≠ ⟨some "http://cybox.mitre.org/objects#WinHandleObject-2", "Handle"⟩) := ⟨by simp, hall⟩
    exact (alls_iff.1 (all_of_walk _ this c' hw).2 _ x3).1 x4

theorem finished_handles {o : Options} {L : Node → Ctx → Prop} {b t' : Node} (h : Finished o L b t')
    (hb : ∀ c ∈ b.elems, ¬ TwoLevel c) : ∀ c ∈ t'.elems, ¬ TwoLevel c := by
  obtain ⟨d, h1, h2, h3, _⟩ := h
  have hd : ∀ c ∈ d.elems, ¬ TwoLevel c := by
    intro c' hc' ⟨x1, x2, e, ks, x3, x4⟩
    obtain ⟨c, hc, _, hl, hp, hk⟩ := rel_elems h1 hc'
    have hne : c.anc ≠ [] := fun e => x1 (List.eq_nil_of_length_eq_zero (by rw [hl, e]; rfl))
    obtain ⟨e0, ks0, y1, y2⟩ := rels_mem hk x3
    exact hb c hc ⟨hne, hp.1.1 ▸ x2, e0, ks0, y1, y2.1.1 ▸ x4⟩
  cases ho : o.removeOptionals with
  | false => rw [h3 ho]; exact hd
  | true =>
    obtain ⟨S, _, rfl⟩ := h2 ho
    intro c' hc' ⟨x1, x2, e, ks, x3, x4⟩
    obtain ⟨c, hc, he, _, ha, hk, _⟩ := mem_without hc'
    rw [hk] at x3
    obtain ⟨j, es, y1, _⟩ := mem_pruneCtxs x3
    exact hd c hc ⟨ha ▸ x1, he ▸ x2, e, es, List.mem_of_getElem? y1, x4⟩

/-- The check lets only two-level handles with one child node pass. -/
theorem check_single {o : Options} {t : Node} (h : cybox201.check o t = .ok ()) : Single t := by
  have h' : cybox201Check (cybox201Cls Tables.cybox201_nsmap xpathObservables) o t = .ok () := h
  unfold cybox201Check at h'
  split at h'
  · cases h'
  · simp only at h'
    obtain ⟨l, h1, h2⟩ := findAll_201 t
    have h3 : findAll (cybox201Cls Tables.cybox201_nsmap xpathObservables).disallowed t = .ok l := h1
    rw [h3] at h'
    simp only at h'
    split at h'
    · next hd =>
      simp only [Bool.and_eq_true, List.isEmpty_iff] at hd
      intro c hc ⟨x1, x2, e, ks, x3, x4⟩
      have hl : 0 < c.kids.length := List.length_pos_of_mem x3
      have hn : c ∉ l := by rw [hd.1]; simp
      rw [reportsAll_mem h2] at hn
      rcases Nat.lt_or_ge 1 c.kids.length with hg | hg
      · refine absurd ⟨hc, rules201[3], List.getElem_mem _, ?_⟩ hn
        exact ⟨⟨x1, x2⟩, ⟨e, ks, x3, x4⟩, hg⟩
      · omega
    · cases h'

/-- The CybOX part when the check has passed. -/
theorem handles_prep {m : List (String × String)} {sel : List XAlt} {o : Options} {t t' : Node}
    (h : cybox201Update (cybox201Cls m sel) o t = .ok t') (hs : Single t) :
    (∃ b c d e f, Replaced (Header "DNT") StringOf (cybox201Prep m sel t) b ∧ Replaced (Header "Vary") StringOf b c ∧
      Replaced (Header "Refresh") RefreshOf c d ∧ Respelt d e ∧ Replaced TwoLevel OnlyHandle e f ∧
      Finished o (Named optional21) f t') ∧
    (NoNestedHandle t → ∀ c ∈ t'.elems, ¬ TwoLevel c) := by
  obtain ⟨b, h2, h3⟩ := cybox201_stages h
  have h1 : Node.Rel PrepElem t (cybox201Prep m sel t) := prep_pass m sel t
  obtain ⟨c, d, e, f, g1, g2, g3, g4, g5⟩ := fields_201 h2
  have q1 : ∀ c n, StringOf c n → ∃ as tx, n = .elem ⟨c.e.tag, [], as, tx, none⟩ [] :=
    fun c n ⟨v, as, _, hn, _⟩ => ⟨as, v.text, hn⟩
  have q2 : ∀ c n, RefreshOf c n → ∃ as tx, n = .elem ⟨c.e.tag, [], as, tx, none⟩ [] :=
    fun c n ⟨as, hn, _⟩ => ⟨as, c.e.text, hn⟩
  refine ⟨⟨c, d, e, f, b, g1, g2, g3, g4, ?_, h3⟩, fun hn => ?_⟩
  · refine g5.mono (fun _ _ => Iff.rfl) ?_
    rintro x hx n hsel ⟨e0, ks0, y1, y2, y3⟩
    refine ⟨e0, ks0, ?_, y2, y3⟩
    have hl := (respelt_handles g4).1 ((header_handles g3 q2).1 ((header_handles g2 q1).1 ((header_handles g1 q1).1
      ((prep_handles h1).1 hs)))) x hx hsel
    obtain ⟨k, hk⟩ := List.length_eq_one_iff.1 hl
    rw [hk] at y1 ⊢
    rw [List.mem_singleton.1 y1]
  · exact finished_handles h3 (handles_gone g5 ((respelt_handles g4).2 ((header_handles g3 q2).2 ((header_handles g2 q1).2
      ((header_handles g1 q1).2 ((prep_handles h1).2 hn))))))

theorem handles_201 {m : List (String × String)} {sel : List XAlt} {o : Options} {t t' : Node}
    (h : cybox201Update (cybox201Cls m sel) o t = .ok t') (hs : Single t) :
    (∃ a b c d e f, Node.Rel PrepElem t a ∧ Replaced (Header "DNT") StringOf a b ∧ Replaced (Header "Vary") StringOf b c ∧
      Replaced (Header "Refresh") RefreshOf c d ∧ Respelt d e ∧ Replaced TwoLevel OnlyHandle e f ∧
      Finished o (Named optional21) f t') ∧
    (NoNestedHandle t → ∀ c ∈ t'.elems, ¬ TwoLevel c) := by
  obtain ⟨⟨b, c, d, e, f, g⟩, hn⟩ := handles_prep h hs
  exact ⟨⟨_, b, c, d, e, f, prep_pass m sel t, g⟩, hn⟩

/-! ## Theorems -/

/-- A 2.0.1 document with two misspelt fields. -/
def docPacket : Node := cyboxDoc v201 [el nsPacket "Protol_Addr_Size" [] [el nsPacket "Authenication_Data" [] []]]

/-- The child nodes. -/
def Node.kids : Node → List Node
  | .elem _ ks => ks
  | .other _ _ => []

/-- C28: the stages of the CybOX 2.0.1 step (also inside a STIX 1.0.1 package).  Every outermost `DNT`, `Vary`, `Refresh`
field becomes a string with the text and the attributes of its value.
Partial: it is under the hypothesis that the step succeeds; a field without a value makes it fail
(`C28_no_value_fails`), and the text of a value that begins with a comment is lost (`C28_comment_fails`). -/
theorem C28_partial (m : List (String × String)) (sel : List XAlt) (o : Options) (t t' : Node)
    (h : cybox201Update (cybox201Cls m sel) o t = .ok t') :
    ∃ a b c d e f, Node.Rel PrepElem t a ∧ Replaced (Header "DNT") StringOf a b ∧ Replaced (Header "Vary") StringOf b c ∧
      Replaced (Header "Refresh") RefreshOf c d ∧ Respelt d e ∧ Replaced TwoLevel InnerHandle e f ∧
      Finished o (Named optional21) f t' := by
  obtain ⟨b, h2, h3⟩ := cybox201_stages h
  obtain ⟨c, d, e, f, g1, g2, g3, g4, g5⟩ := fields_201 h2
  exact ⟨_, c, d, e, f, b, prep_pass m sel t, g1, g2, g3, g4, g5, h3⟩

def nsURI : String := "http://cybox.mitre.org/objects#URIObject-2"

/-- A 2.0.1 document with one field of each kind. -/
def docHeaders : Node :=
  cyboxDoc v201 [el nsHTTPSession "HTTP_Request_Header_Fields" []
    [el nsHTTPSession "DNT" [at_ "type" "URL"] [el nsURI "Value" [at_ "datatype" "anyURI", at_ "condition" "Equals"] [] (some "1")],
      el nsHTTPSession "Refresh" [at_ "datatype" "integer", at_ "id" "r"] [] (some "5"),
      el nsHTTPSession "X_Requested_For" [at_ "id" "q"] [el "urn:a" "x" [] []] (some "host"),
      el nsPacket "Protol_Addr_Size" [] [el nsPacket "Authenication_Data" [] []]]]

example : ∃ r, stepUpdate cybox201 o0 false 0 docHeaders = .ok r ∧
    r.1.doc = cyboxDoc [at_ "cybox_major_version" "2", at_ "cybox_minor_version" "1"]
      [el nsHTTPSession "HTTP_Request_Header_Fields" []
        [el nsHTTPSession "DNT" [at_ "datatype" "anyURI", at_ "condition" "Equals"] [] (some "1"),
          el nsHTTPSession "Refresh" [at_ "datatype" "string", at_ "id" "r"] [] (some "5"),
          el nsHTTPSession "X_Forwarded_For" [at_ "id" "q"] [el "urn:a" "x" [] []] (some "host"),
          el nsPacket "Proto_Addr_Size" [] [el nsPacket "Authentication_Data" [] []]]] :=
  ok_of_eval (by decide +kernel)

/-- A document whose `DNT` field has no value. -/
def docNoValue : Node := cyboxDoc v201 [el nsHTTPSession "DNT" [] [] (some "1")]

/-- C28 fails: a field without a URI value ends the update with `IndexError`, forced or not. -/
theorem C28_no_value_fails : stepUpdate cybox201 o0 false 0 docNoValue = .error .indexError ∧
    stepUpdate cybox201 o0 true 0 docNoValue = .error .indexError := by decide +kernel

/-- A document whose value begins with a comment. -/
def docValueComment : Node :=
  cyboxDoc v201 [el nsHTTPSession "DNT" [] [el nsURI "Value" [] [.other "why" (some "1")]]]

/-- C28 fails: the value text after a comment is lost. -/
theorem C28_comment_fails : docValueComment.ink = ['1'] ∧
    ∃ r, stepUpdate cybox201 o0 false 0 docValueComment = .ok r ∧ r.1.doc.ink = [] :=
  ⟨by decide +kernel, ok_of_eval (by decide +kernel)⟩

/-- C29: in a document without the other fields, the 2.0.1 step (vocabularies and optional elements left alone) renames the
misspelt elements below the root, in one pass, and nothing else.  In general that pass is one of the stages in
`C28_partial`. -/
theorem C29_spelling (m : List (String × String)) (sel : List XAlt) (o : Options) (t t' : Node)
    (hv : o.updateVocabularies = false) (ho : o.removeOptionals = false)
    (hn : ∀ c ∈ t.elems, ¬ Header "DNT" c ∧ ¬ Header "Vary" c ∧ ¬ Header "Refresh" c ∧ ¬ TwoLevel c)
    (h : cybox201Update (cybox201Cls m sel) o t = .ok t') : ∃ s, Node.Rel PrepElem t s ∧ Respelt s t' := by
  obtain ⟨a, b, h1, h2, h3⟩ := cybox201_stages_plain h hv ho
  subst h3
  obtain ⟨c, d, e, f, g1, g2, g3, g4, g5⟩ := fields_201 h2
  have ha : ∀ c ∈ a.elems, ¬ Header "DNT" c ∧ ¬ Header "Vary" c ∧ ¬ Header "Refresh" c ∧ ¬ TwoLevel c := by
    intro c' hc'
    obtain ⟨c, hc, _, hl, hp, hk⟩ := rel_elems h1 hc'
    obtain ⟨n1, n2, n3, n4⟩ := hn c hc
    have hne : c'.anc ≠ [] → c.anc ≠ [] := fun h e => h (List.eq_nil_of_length_eq_zero (by rw [hl, e]; rfl))
    have back : ∀ name, Header name c' → Header name c := fun name ⟨x1, x2⟩ => ⟨hne x1, prep_tag hp x2 (by simp)⟩
    refine ⟨fun h => n1 (back _ h), fun h => n2 (back _ h), fun h => n3 (back _ h), ?_⟩
    rintro ⟨x1, x2, e, ks, x3, x4⟩
    obtain ⟨e0, ks0, y1, y2⟩ := rels_mem hk x3
    exact n4 ⟨hne x1, prep_tag hp x2 (by decide), e0, ks0, y1, prep_tag y2 x4 (by decide)⟩
  have e1 := g1.none (fun c hc => (ha c hc).1); subst e1
  have e2 := g2.none (fun c hc => (ha c hc).2.1); subst e2
  have e3 := g3.none (fun c hc => (ha c hc).2.2.1); subst e3
  have e4 := g5.none (fun c' hc' => by
    unfold Respelt at g4
    subst g4
    obtain ⟨c, hc, _, he, hl, hk⟩ := mem_edit hc'
    rintro ⟨x1, x2, e, ks, x3, x4⟩
    have hne : c.anc ≠ [] := fun e => x1 (List.eq_nil_of_length_eq_zero (by rw [hl, e]; rfl))
    rw [he, if_neg (by simpa using hne)] at x2
    rw [hk] at x3
    obtain ⟨j, e0, ks0, y1, y2⟩ := mapCtxs_mem x3
    simp only [List.isEmpty_cons, Bool.false_eq_true, if_false] at y2
    rw [y2] at x4
    exact (ha c hc).2.2.2 ⟨hne, respell_inv x2 (by decide +kernel), e0, ks0, List.mem_of_getElem? y1, respell_inv x4 (by decide +kernel)⟩)
  subst e4
  exact ⟨_, h1, g4⟩

example : (∀ c ∈ docPacket.elems, ¬ Header "DNT" c ∧ ¬ Header "Vary" c ∧ ¬ Header "Refresh" c ∧ ¬ TwoLevel c) ∧
    ∃ r, cybox201.update { o0 with updateVocabularies := false, removeOptionals := false } docPacket = .ok r ∧
      r.kids = [el nsPacket "Proto_Addr_Size" [] [el nsPacket "Authentication_Data" [] []]] := by
  refine ⟨?_, ok_of_eval (by decide +kernel)⟩
  have : ∀ c ∈ docPacket.elems, c.e.tag.ns ≠ some "http://cybox.mitre.org/objects#HTTPSessionObject-2" ∧
    c.e.tag.ns ≠ some "http://cybox.mitre.org/objects#WinMailslotObject-2" := by decide +kernel
  intro c hc
  obtain ⟨h1, h2⟩ := this c hc
  exact ⟨fun h => h1 (by rw [h.2]), fun h => h1 (by rw [h.2]), fun h => h1 (by rw [h.2]), fun h => h2 (by rw [h.2.1])⟩

/-- C29: no misspelt name is left by the CybOX 2.0.1 step. -/
theorem C29_none_left (o : Options) (force : Bool) (k k' : Nat) (t : Node) (r : Result)
    (hr : ∀ e, t.root? = some e → WellSpelt e) (h : stepUpdate cybox201 o force k t = .ok (r, k')) :
    ∀ c ∈ r.doc.elems, c.e.tag ∉ spelling.map (·.1) := by
  obtain ⟨t0, h1, h2⟩ := step_update (w := w0) .cybox201 h
  exact all_elems.1 (cybox201_spelling h2 (by rw [h1]; exact hr))

example : (∀ e, docHeaders.root? = some e → WellSpelt e) ∧
    ∃ r, stepUpdate cybox201 o0 false 0 docHeaders = .ok r :=
  ⟨by intro e he; cases he; show _ ∉ _; decide, by
    obtain ⟨r, h, _⟩ := ok_of_eval (x := stepUpdate cybox201 o0 false 0 docHeaders) (P := fun _ => True) (by decide +kernel)
    exact ⟨r, h⟩⟩

/-- C30: if the check passes, every outermost mailslot handle that holds a handle becomes that handle, which was its only
child node, under the name of the mailslot handle, with its attributes, declarations, text, tail and children.  If no handle
is inside a handle, no two-level handle is left.
Partial: with a handle inside a handle a two-level one is left (`C30_nested_fails`); the attributes and the text of the outer
handle are not kept (`C30_outer_lost`). -/
theorem C30_partial (o : Options) (t t' : Node) (hc : cybox201.check o t = .ok ()) (h : cybox201.update o t = .ok t') :
    (∃ a b c d e f, Node.Rel PrepElem t a ∧ Replaced (Header "DNT") StringOf a b ∧ Replaced (Header "Vary") StringOf b c ∧
      Replaced (Header "Refresh") RefreshOf c d ∧ Respelt d e ∧ Replaced TwoLevel OnlyHandle e f ∧
      Finished o (Named optional21) f t') ∧
    (NoNestedHandle t → ∀ c ∈ t'.elems, ¬ TwoLevel c) :=
  handles_201 (m := Tables.cybox201_nsmap) (sel := xpathObservables) h (check_single hc)

def nsHandle : String := "http://cybox.mitre.org/objects#WinHandleObject-2"

/-- A document with a two-level handle. -/
def docHandle : Node :=
  cyboxDoc v201 [el nsWinMailslot "Handle" [] [el nsHandle "Handle" [at_ "id" "h"] [el nsHandle "Name" [] [] (some "n")] (some "x")]]

example : cybox201.check o0 docHandle = .ok () ∧ NoNestedHandle docHandle ∧ (∃ c ∈ docHandle.elems, TwoLevel c) ∧
    ∃ r, cybox201.update o0 docHandle = .ok r ∧
      r.kids = [el nsWinMailslot "Handle" [at_ "id" "h"] [el nsHandle "Name" [] [] (some "n")] (some "x")] := by
  refine ⟨by decide +kernel, fun c hc ht => alls_iff.2 (fun k hk => (all_iff [] [] [] k).2 ?_),
    ⟨_, walk_child docHandle ⟨[], _, [], _, docHandle.kids⟩ (List.mem_cons_self ..) 0 _ _ rfl, ?_⟩, ok_of_eval (by decide +kernel)⟩
  · have : ∀ c ∈ docHandle.elems, c.e.tag = ⟨some "http://cybox.mitre.org/objects#WinHandleObject-2", "Handle"⟩ →
      ∀ k ∈ c.kids, ∀ d ∈ k.walk [] [] [], d.e.tag ≠ ⟨some "http://cybox.mitre.org/objects#WinHandleObject-2", "Handle"⟩ := by
      decide +kernel
    exact this c hc ht k hk
  · exact ⟨by simp, rfl, _, _, List.mem_cons_self .., rfl⟩

/-- A document with a handle in the handle of a mailslot handle. -/
def docNestedHandle : Node :=
  cyboxDoc v201 [el nsWinMailslot "Handle" [] [el nsHandle "Handle" [] [el nsHandle "Handle" [] []]]]

/-- C30 fails: a document that passes the check has a two-level handle left. -/
theorem C30_nested_fails : cybox201.check o0 docNestedHandle = .ok () ∧ ∃ t', cybox201.update o0 docNestedHandle = .ok t' ∧
    t'.kids = [el nsWinMailslot "Handle" [] [el nsHandle "Handle" [] []]] :=
  ⟨by decide +kernel, ok_of_eval (by decide +kernel)⟩

/-- A document with an id and a text on the outer handle. -/
def docOuterHandle : Node :=
  cyboxDoc v201 [el nsWinMailslot "Handle" [at_ "id" "m"] [el nsHandle "Handle" [] []] (some "x")]

/-- C30 fails: what is on the outer handle is lost. -/
theorem C30_outer_lost : cybox201.check o0 docOuterHandle = .ok () ∧ ∃ t', cybox201.update o0 docOuterHandle = .ok t' ∧
    t'.kids = [el nsWinMailslot "Handle" [] []] :=
  ⟨by decide +kernel, ok_of_eval (by decide +kernel)⟩

end Ramrod
