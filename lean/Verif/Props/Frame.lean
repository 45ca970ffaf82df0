import Verif.Props.Vocabs
/-!
# What a step leaves alone: C21, C43
-/

namespace Ramrod

open Samples

/-! ## Specification vocabulary: C43 -/

/-- Two elements that differ at most in text and in attributes named in `L`; the other attributes are the same and
in the same order. -/
def SameData (L : List QName) (e e' : Elem) : Prop :=
  e'.tag = e.tag ∧ e'.decls = e.decls ∧ e'.tail = e.tail ∧
  e'.attrs.filter (fun a => decide (a.1 ∉ L)) = e.attrs.filter (fun a => decide (a.1 ∉ L))

mutual
/-- Two documents with the same elements, comments, tails and namespace declarations in the same order, whose
attributes differ at most in those named in `L`. -/
def SameSkeleton (L : List QName) : Node → Node → Prop
  | .elem e ks, .elem e' ks' => SameData L e e' ∧ SameSkeletons L ks ks'
  | .other c t, .other c' t' => c' = c ∧ t' = t
  | .elem _ _, .other _ _ => False
  | .other _ _, .elem _ _ => False
/-- `SameSkeleton` child by child. -/
def SameSkeletons (L : List QName) : List Node → List Node → Prop
  | [], [] => True
  | k :: ks, k' :: ks' => SameSkeleton L k k' ∧ SameSkeletons L ks ks'
  | [], _ :: _ => False
  | _ :: _, [] => False
end

/-- Attributes the vocabulary and schemaLocation passes may change. -/
def vocabNames : List QName :=
  [⟨some "http://www.w3.org/2001/XMLSchema-instance", "schemaLocation"⟩,
   ⟨some "http://www.w3.org/2001/XMLSchema-instance", "type"⟩, ⟨none, "vocab_name"⟩, ⟨none, "vocab_reference"⟩]
/-- The CybOX version attributes. -/
def cyboxVersionNames : List QName :=
  [⟨none, "cybox_major_version"⟩, ⟨none, "cybox_minor_version"⟩, ⟨none, "cybox_update_version"⟩]
/-- The STIX version attribute. -/
def stixVersionNames : List QName := [⟨none, "version"⟩]

/-! ## Helpers -/

theorem SameData.refl (L : List QName) (e : Elem) : SameData L e e := ⟨rfl, rfl, rfl, rfl⟩

theorem SameData.trans {L : List QName} {a b c : Elem} (h : SameData L a b) (h' : SameData L b c) : SameData L a c :=
  ⟨h'.1.trans h.1, h'.2.1.trans h.2.1, h'.2.2.1.trans h.2.2.1, h'.2.2.2.trans h.2.2.2⟩

theorem filter_set {L : List QName} {k : QName} (hk : k ∈ L) (v : String) (as : Attrs) :
    (Attrs.set as k v).filter (fun a => decide (a.1 ∉ L)) = as.filter (fun a => decide (a.1 ∉ L)) := by
  induction as with
  | nil => simp [Attrs.set, hk]
  | cons x xs ih =>
    obtain ⟨k', v'⟩ := x
    simp only [Attrs.set]
    split
    · next h => subst h; simp [hk]
    · simp only [List.filter_cons, ih]

theorem SameData.set {L : List QName} {k : QName} (hk : k ∈ L) (v : String) (e : Elem) : SameData L e (e.set k v) :=
  ⟨rfl, rfl, rfl, filter_set hk v e.attrs⟩

theorem sameData_updateNode {L : List QName} (h1 : tagXsiType ∈ L) (h2 : attrVocabReference ∈ L) (h3 : attrVocabName ∈ L)
    {v : Vocab} {e e' : Elem} (h : v.updateNode e = .ok e') : SameData L e e' := by
  simp only [Vocab.updateNode] at h
  split at h
  · cases h
  · split at h
    · cases h
    · next e2 he2 =>
      have h12 : SameData L e e2 := by
        split at he2
        · split at he2
          · simp only [Except.ok.injEq] at he2; rw [← he2]
            exact (SameData.set h1 _ e).trans (SameData.set h2 _ _)
          · cases he2
        · simp only [Except.ok.injEq] at he2; rw [← he2]; exact SameData.set h1 _ e
      have h23 : ∀ e3 : Elem, e3 = (if e2.has attrVocabName = true then e2.set attrVocabName v.name else e2) →
          SameData L e e3 := by
        intro e3 he3
        rw [he3]
        split
        · exact h12.trans (SameData.set h3 _ _)
        · exact h12
      obtain ⟨a1, a2, a3, a4⟩ := h23 _ rfl
      split at h
      · split at h <;> (simp only [Except.ok.injEq] at h; rw [← h]; exact ⟨a1, a2, a3, a4⟩)
      · simp only [Except.ok.injEq] at h; rw [← h]; exact ⟨a1, a2, a3, a4⟩

mutual
theorem skeleton_mapCtx {L : List QName} {F : Ctx → Elem} (hF : ∀ c, SameData L c.e (F c)) (pos : Pos) (env : NsMap)
    (anc : List QName) : ∀ t : Node, SameSkeleton L t (t.mapCtx F pos env anc)
  | .other _ _ => by simp only [Node.mapCtx, SameSkeleton]; exact ⟨trivial, trivial⟩
  | .elem e ks => by
    simp only [Node.mapCtx, SameSkeleton]
    exact ⟨hF _, skeletons_mapCtxs hF _ _ _ _ ks⟩
theorem skeletons_mapCtxs {L : List QName} {F : Ctx → Elem} (hF : ∀ c, SameData L c.e (F c)) (pos : Pos) (i : Nat)
    (env : NsMap) (anc : List QName) : ∀ ks : List Node, SameSkeletons L ks (Node.mapCtxs F pos i env anc ks)
  | [] => by simp [Node.mapCtxs, SameSkeletons]
  | k :: ks => by
    simp only [Node.mapCtxs, SameSkeletons]
    exact ⟨skeleton_mapCtx hF _ _ _ k, skeletons_mapCtxs hF _ _ _ _ ks⟩
end

mutual
theorem SameSkeleton.trans {L : List QName} : ∀ {a b c : Node}, SameSkeleton L a b → SameSkeleton L b c → SameSkeleton L a c
  | .elem _ ks, .elem _ ks', .elem _ ks'', h, h' => by
    simp only [SameSkeleton] at h h' ⊢
    exact ⟨h.1.trans h'.1, SameSkeletons.trans h.2 h'.2⟩
  | .other _ _, .other _ _, .other _ _, h, h' => by
    simp only [SameSkeleton] at h h' ⊢
    exact ⟨h'.1.trans h.1, h'.2.trans h.2⟩
  | .elem _ _, .other _ _, _, h, _ => by simp only [SameSkeleton] at h
  | .other _ _, .elem _ _, _, h, _ => by simp only [SameSkeleton] at h
  | .elem _ _, .elem _ _, .other _ _, _, h' => by simp only [SameSkeleton] at h'
  | .other _ _, .other _ _, .elem _ _, _, h' => by simp only [SameSkeleton] at h'
theorem SameSkeletons.trans {L : List QName} : ∀ {a b c : List Node}, SameSkeletons L a b → SameSkeletons L b c →
    SameSkeletons L a c
  | [], [], [], _, _ => by simp [SameSkeletons]
  | _ :: _, _ :: _, _ :: _, h, h' => by
    simp only [SameSkeletons] at h h' ⊢
    exact ⟨SameSkeleton.trans h.1 h'.1, SameSkeletons.trans h.2 h'.2⟩
  | [], _ :: _, _, h, _ => by simp only [SameSkeletons] at h
  | _ :: _, [], _, h, _ => by simp only [SameSkeletons] at h
  | [], [], _ :: _, _, h' => by simp only [SameSkeletons] at h'
  | _ :: _, _ :: _, [], _, h' => by simp only [SameSkeletons] at h'
end

theorem sameData_schemaloc {L : List QName} (h : tagSchemaLoc ∈ L) (u : Cls) (c : Ctx) :
    SameData L c.e (schemalocEdit u c) := by
  unfold schemalocEdit
  split
  · unfold Cls.updateSchemalocsElem
    split
    · exact SameData.refl L _
    · exact SameData.set h _ _
  · exact SameData.refl L _

theorem sameData_version {L : List QName} {m : List (String × String)} {alts : List XAlt} {g : Elem → Elem}
    (hg : ∀ e, SameData L e (g e)) (c : Ctx) : SameData L c.e (versionEdit m alts g c) := by
  unfold versionEdit
  split
  · exact hg _
  · exact SameData.refl L _

theorem sameData_lists {L : List QName} (m : List (String × String)) (c : Ctx) : SameData L c.e (listsEdit m c) := by
  obtain ⟨h1, h2, h3, h4⟩ := iter_lists_keeps
    (propsDepth (XName.resolve m ⟨"cybox", "Object"⟩) (XName.resolve m ⟨"cybox", "Properties"⟩) c.anc) c.e
  exact ⟨h1, h2, h4, by unfold listsEdit; rw [h3]⟩

theorem sameData_vocab {L : List QName} (h1 : tagXsiType ∈ L) (h2 : attrVocabReference ∈ L) (h3 : attrVocabName ∈ L)
    (v : Vocab) (c : Ctx) : SameData L c.e (v.edit c) := by
  unfold Vocab.edit
  split
  · split
    · next e' he => exact sameData_updateNode h1 h2 h3 he
    · exact SameData.refl L _
  · exact SameData.refl L _

theorem sameData_vocabs {L : List QName} (h1 : tagXsiType ∈ L) (h2 : attrVocabReference ∈ L) (h3 : attrVocabName ∈ L) :
    ∀ (vs : List Vocab) (c : Ctx), SameData L c.e (vocabsEdit vs c)
  | [], c => SameData.refl L _
  | v :: vs, c => (sameData_vocab h1 h2 h3 v c).trans (sameData_vocabs h1 h2 h3 vs (c.upd v.edit))

theorem sameData_vocabsIf {L : List QName} (h1 : tagXsiType ∈ L) (h2 : attrVocabReference ∈ L) (h3 : attrVocabName ∈ L)
    (b : Bool) (vs : List Vocab) (c : Ctx) : SameData L c.e (vocabsIfEdit b vs c) := by
  cases b
  · exact SameData.refl L _
  · exact sameData_vocabs h1 h2 h3 vs c

/-- An unforced step runs `_update` on the document itself. -/
theorem unforced_update {u : Updater} {o : Options} {k k' : Nat} {t : Node} {r : Result}
    (h : stepUpdate u o false k t = .ok (r, k')) : u.update o t = .ok r.doc := by
  simp only [stepUpdate, tryUpdate, Bool.and_false, Bool.false_eq_true, if_false] at h
  split at h
  · next d hd =>
    simp only [Except.ok.injEq, Prod.mk.injEq] at h
    rw [← h.1]
    split at hd
    · cases hd
    · exact hd
  · cases h

theorem skeleton_cybox20 {L : List QName} (hv : ∀ q ∈ vocabNames, q ∈ L) (hc : ∀ q ∈ cyboxVersionNames, q ∈ L)
    {m : List (String × String)} {sel : List XAlt} {o : Options} {t t' : Node}
    (h : cybox20Update (cybox20Cls m sel) o t = .ok t') : SameSkeleton L t t' := by
  simp only [cybox20Update] at h
  rw [updateSchemalocs_eq, cybox20Versions_eq, updateLists_eq] at h
  have h1 := vocabsIf_eq h
  rw [h1]
  have hset : ∀ e, SameData L e (setVersion201 e) := fun e =>
    ((SameData.set (hc attrMajor (by decide)) _ e).trans (SameData.set (hc attrMinor (by decide)) _ _)).trans
      (SameData.set (hc attrUpdate (by decide)) _ _)
  exact (((skeleton_mapCtx (sameData_schemaloc (hv tagSchemaLoc (by decide)) _) _ _ _ t).trans
    (skeleton_mapCtx (sameData_version hset) _ _ _ _)).trans (skeleton_mapCtx (sameData_lists _) _ _ _ _)).trans
    (skeleton_mapCtx (sameData_vocabsIf (hv _ (by decide)) (hv _ (by decide)) (hv _ (by decide)) _ _) _ _ _ _)

theorem skeleton_stix10 {o : Options} {t t' : Node} (hu : stix10.update o t = .ok t') :
    SameSkeleton (vocabNames ++ cyboxVersionNames ++ stixVersionNames) t t' := by
  simp only [stix10, stix10Update] at hu
  split at hu
  · cases hu
  · next t1 h1 =>
    have hs : ∀ (i v : String) (e : Elem), SameData (vocabNames ++ cyboxVersionNames ++ stixVersionNames) e (setStixVersion i v e) :=
      fun i v e => SameData.set (by decide) _ e
    rw [updateNamespaces_none rfl, updateSchemalocs_eq, stixVersions_eq] at hu
    rw [vocabsIf_eq hu]
    exact (((skeleton_cybox20 (fun q hq => by simp [hq]) (fun q hq => by simp [hq]) h1).trans
      (skeleton_mapCtx (sameData_schemaloc (by decide) _) _ _ _ _)).trans
      (skeleton_mapCtx (sameData_version (hs _ _)) _ _ _ _)).trans
      (skeleton_mapCtx (sameData_vocabsIf (by decide) (by decide) (by decide) _ _) _ _ _ _)

theorem skeleton_stix111 {o : Options} {t t' : Node} (hu : stix111.update o t = .ok t') :
    SameSkeleton (vocabNames ++ stixVersionNames) t t' := by
  simp only [stix111, stix111Update] at hu
  have hs : ∀ (i v : String) (e : Elem), SameData (vocabNames ++ stixVersionNames) e (setStixVersion i v e) :=
    fun i v e => SameData.set (by decide) _ e
  rw [updateSchemalocs_eq, stixVersions_eq] at hu
  rw [vocabsIf_eq hu]
  exact ((skeleton_mapCtx (sameData_schemaloc (by decide) _) _ _ _ t).trans
    (skeleton_mapCtx (sameData_version (hs _ _)) _ _ _ _)).trans
    (skeleton_mapCtx (sameData_vocabsIf (by decide) (by decide) (by decide) _ _) _ _ _ _)

mutual
theorem SameSkeleton.refl (L : List QName) : ∀ t : Node, SameSkeleton L t t
  | .elem e ks => by simp only [SameSkeleton]; exact ⟨SameData.refl L e, SameSkeletons.refl L ks⟩
  | .other _ _ => by simp [SameSkeleton]
theorem SameSkeletons.refl (L : List QName) : ∀ ks : List Node, SameSkeletons L ks ks
  | [] => by simp [SameSkeletons]
  | k :: ks => by simp only [SameSkeletons]; exact ⟨SameSkeleton.refl L k, SameSkeletons.refl L ks⟩
end

/-- C43, CybOX 2.0 to 2.0.1. -/
theorem C43_cybox20 (o : Options) (k k' : Nat) (t : Node) (r : Result) (h : stepUpdate cybox20 o false k t = .ok (r, k')) :
    SameSkeleton (vocabNames ++ cyboxVersionNames) t r.doc :=
  skeleton_cybox20 (fun q hq => List.mem_append_left _ hq) (fun q hq => List.mem_append_right _ hq) (unforced_update h)

/-- C43, STIX 1.0 to 1.0.1. -/
theorem C43_stix10 (o : Options) (k k' : Nat) (t : Node) (r : Result) (h : stepUpdate stix10 o false k t = .ok (r, k')) :
    SameSkeleton (vocabNames ++ cyboxVersionNames ++ stixVersionNames) t r.doc := skeleton_stix10 (unforced_update h)

/-- C43, STIX 1.1.1 to 1.2. -/
theorem C43_stix111 (o : Options) (k k' : Nat) (t : Node) (r : Result) (h : stepUpdate stix111 o false k t = .ok (r, k')) :
    SameSkeleton (vocabNames ++ stixVersionNames) t r.doc := skeleton_stix111 (unforced_update h)

/-- A document with a comment, a foreign attribute and an outdated vocabulary value. -/
def docSkel (v : String) : Node :=
  stixDoc v [.other "<!-- c -->" (some "x"), el nsStix "Incident" [at_ "version" v, at_ "id" "a"]
    [el "http://stix.mitre.org/Incident-1" "Discovery_Method"
      [at_ "foo" "1", xsiType "stixVocabs:DiscoveryMethodVocab-1.0"] [] (some "Fraud Detection")]]

example : (stepUpdate stix111 o0 false 0 (docSkel "1.1.1")).isOk = true ∧ (stepUpdate stix10 o0 false 0 (docSkel "1.0")).isOk = true ∧
    (stepUpdate cybox20 o0 false 0 (cyboxDoc v20 [el nsCyboxCore "Observable" [at_ "foo" "1"] []])).isOk = true := by
  decide +kernel

end Ramrod
