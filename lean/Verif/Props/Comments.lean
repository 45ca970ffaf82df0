import Verif.Props.Unique
/-!
# Comments: C66
-/

namespace Ramrod

open Samples

/-! ## Statement -/

mutual
/-- The comments and processing instructions of a document in document order, each with the text after it. -/
def Node.notes : Node → List (String × Option String)
  | .elem _ ks => Node.notess ks
  | .other c t => [(c, t)]
/-- The same for a list of nodes. -/
def Node.notess : List Node → List (String × Option String)
  | [] => []
  | k :: ks => k.notes ++ Node.notess ks
end

/-! ## Helpers: comments after changes, replacements and removals -/

mutual
theorem rel_notes {P : Elem → Elem → Prop} : ∀ {a b : Node}, Node.Rel P a b → b.notes = a.notes
  | .elem _ _, .elem _ _, h => by
    simp only [Node.Rel] at h
    simp only [Node.notes]
    exact rels_notess h.2
  | .other _ _, .other _ _, h => by
    simp only [Node.Rel] at h
    simp only [Node.notes, h.1, h.2]
  | .elem _ _, .other _ _, h => by simp only [Node.Rel] at h
  | .other _ _, .elem _ _, h => by simp only [Node.Rel] at h
theorem rels_notess {P : Elem → Elem → Prop} : ∀ {a b : List Node}, Node.Rels P a b → Node.notess b = Node.notess a
  | [], [], _ => rfl
  | _ :: _, _ :: _, h => by
    simp only [Node.Rels] at h
    simp only [Node.notess]
    rw [rel_notes h.1, rels_notess h.2]
  | [], _ :: _, h => by simp only [Node.Rels] at h
  | _ :: _, [], h => by simp only [Node.Rels] at h
end

mutual
theorem notes_substCtx {R : Ctx → Option Node} {pos : Pos} {env : NsMap} {anc : List QName} : ∀ (t : Node),
    (∀ c ∈ t.walk pos env anc, ∀ n, R c = some n → n.notes.Sublist c.node.notes) →
    (t.substCtx R pos env anc).notes.Sublist t.notes
  | .other _ _, _ => by simp [Node.substCtx]
  | .elem e ks, h => by
    simp only [Node.substCtx]
    split
    · next n hn => exact h ⟨pos, e.decls ++ env, anc, e, ks⟩ (by simp [Node.walk]) n hn
    · simp only [Node.notes]
      exact notess_substCtxs ks (fun c hc => h c (by simp [Node.walk, hc]))
theorem notess_substCtxs {R : Ctx → Option Node} {pos : Pos} {i : Nat} {env : NsMap} {anc : List QName} :
    ∀ (ks : List Node), (∀ c ∈ Node.walks pos i env anc ks, ∀ n, R c = some n → n.notes.Sublist c.node.notes) →
    (Node.notess (Node.substCtxs R pos i env anc ks)).Sublist (Node.notess ks)
  | [], _ => by simp [Node.substCtxs]
  | t :: ks, h => by
    simp only [Node.substCtxs, Node.notess]
    exact (notes_substCtx t (fun c hc => h c (by simp [Node.walks, hc]))).append
      (notess_substCtxs ks (fun c hc => h c (by simp [Node.walks, hc])))
end

mutual
theorem same_substCtx {R : Ctx → Option Node} {pos : Pos} {env : NsMap} {anc : List QName} : ∀ (t : Node),
    (∀ c ∈ t.walk pos env anc, ∀ n, R c = some n → n.notes = c.node.notes) →
    (t.substCtx R pos env anc).notes = t.notes
  | .other _ _, _ => by simp [Node.substCtx]
  | .elem e ks, h => by
    simp only [Node.substCtx]
    split
    · next n hn => exact h ⟨pos, e.decls ++ env, anc, e, ks⟩ (by simp [Node.walk]) n hn
    · simp only [Node.notes]
      exact same_substCtxs ks (fun c hc => h c (by simp [Node.walk, hc]))
theorem same_substCtxs {R : Ctx → Option Node} {pos : Pos} {i : Nat} {env : NsMap} {anc : List QName} :
    ∀ (ks : List Node), (∀ c ∈ Node.walks pos i env anc ks, ∀ n, R c = some n → n.notes = c.node.notes) →
    Node.notess (Node.substCtxs R pos i env anc ks) = Node.notess ks
  | [], _ => by simp [Node.substCtxs]
  | t :: ks, h => by
    simp only [Node.substCtxs, Node.notess]
    rw [same_substCtx t (fun c hc => h c (by simp [Node.walks, hc])),
      same_substCtxs ks (fun c hc => h c (by simp [Node.walks, hc]))]
end

mutual
theorem notes_pruneCtx {S : Ctx → Bool} {pos : Pos} {env : NsMap} {anc : List QName} : ∀ (t : Node),
    (t.pruneCtx S pos env anc).notes.Sublist t.notes
  | .other _ _ => by simp [Node.pruneCtx]
  | .elem e ks => by
    simp only [Node.pruneCtx, Node.notes]
    exact notess_pruneCtxs ks
theorem notess_pruneCtxs {S : Ctx → Bool} {pos : Pos} {i : Nat} {env : NsMap} {anc : List QName} : ∀ (ks : List Node),
    (Node.notess (Node.pruneCtxs S pos i env anc ks)).Sublist (Node.notess ks)
  | [] => by simp [Node.pruneCtxs]
  | .other c t :: ks => by
    simp only [Node.pruneCtxs, Node.notess]
    exact (List.Sublist.refl _).append (notess_pruneCtxs ks)
  | .elem e es :: ks => by
    simp only [Node.pruneCtxs]
    split
    · exact (notess_pruneCtxs ks).trans (List.sublist_append_right _ _)
    · simp only [Node.notess]
      exact (notes_pruneCtx (.elem e es)).append (notess_pruneCtxs ks)
end

/-- The comments in a child are among the comments in the list. -/
theorem notes_mem {n : Node} : ∀ {ks : List Node}, n ∈ ks → n.notes.Sublist (Node.notess ks)
  | [], h => by cases h
  | x :: ks, h => by
    simp only [Node.notess]
    rcases List.mem_cons.1 h with rfl | h
    · exact List.sublist_append_left _ _
    · exact (notes_mem h).trans (List.sublist_append_right _ _)

/-! ## Helpers: elements and documents on the way -/

/-- No markup in the text of a `Source`. -/
def PlainSrc (Req : Prop) (e : Elem) : Prop := Req → e.tag ∈ sourceTags → ∀ s, e.text = some s → ∀ ch ∈ s.toList, ch ∉ ['<', '>', '&', '\r']

variable {Req : Prop}

theorem text_data {L : List QName} {e e' : Elem} (h : SameData L e e') (ht : e'.text = e.text) (x : PlainSrc Req e) : PlainSrc Req e' := by
  unfold PlainSrc; rw [h.1, ht]; exact x

theorem text_vocab {e e' : Elem} (h : VocabElem e e') (x : PlainSrc Req e) : PlainSrc Req e' := by
  intro hr hs s h2
  rw [h.1.1] at hs
  rcases h.2.2 with h3 | ⟨p, hp, _, h3⟩
  · exact x hr hs s (by rw [← h3]; exact h2)
  · rw [h2] at h3
    cases h3
    exact (by decide : ∀ p ∈ correctedTerms, ∀ ch ∈ p.2.toList, ch ∉ ['<', '>', '&', '\r']) p hp

theorem text_prep {e e' : Elem} (h : PrepElem e e') (x : PlainSrc Req e) : PlainSrc Req e' := by
  intro hr hs
  rcases Classical.em (e.tag.ns = some "http://cybox.mitre.org/objects#WinDriverObject-2") with hn | hn
  · rw [(h.2 hn).1] at hs
    simp [sourceTags] at hs
  · rw [(h.1 hn).1.1] at hs
    rw [(h.1 hn).2]
    exact x hr hs

theorem text_listElem {e : Elem} (x : PlainSrc Req e) : PlainSrc Req (updateListElem e) := by
  unfold updateListElem
  split
  · exact x
  · next s hs =>
    split
    · exact x
    · intro hr ht s' hs' ch hch
      simp only [Option.some.injEq] at hs'
      subst hs'
      simp only [updateListText, pyReplace, String.toList_ofList] at hch
      rcases replaceAux_mem hch with h | h
      · rcases replaceAux_mem h with h | h
        · exact x hr ht s hs ch h
        · exact (by decide : ∀ c ∈ "##comma##".toList, c ∉ ['<', '>', '&', '\r']) ch h
      · exact (by decide : ∀ c ∈ ",".toList, c ∉ ['<', '>', '&', '\r']) ch h

theorem text_iter : ∀ (n : Nat) {e : Elem}, PlainSrc Req e → PlainSrc Req (iter updateListElem n e)
  | 0, _, x => x
  | n + 1, _, x => text_listElem (text_iter n x)

theorem text_schemaloc (u : Cls) (c : Ctx) (x : PlainSrc Req c.e) : PlainSrc Req (schemalocEdit u c) := by
  refine text_data (L := managedNames) (sameData_schemaloc (by decide) u c) ?_ x
  unfold schemalocEdit
  split
  · exact schemalocElem_text u c.e
  · rfl

/-- What a stage may do: the condition is kept, and the comments afterwards are some of those before, in the same order. -/
def NoNew (Req : Prop) (t t' : Node) : Prop := t.All (PlainSrc Req) → t'.All (PlainSrc Req) ∧ t'.notes.Sublist t.notes

theorem NoNew.refl (t : Node) : NoNew Req t t := fun h => ⟨h, .refl _⟩
theorem NoNew.comp {a b c : Node} (h : NoNew Req a b) (h' : NoNew Req b c) : NoNew Req a c :=
  fun x => ⟨(h' (h x).1).1, (h' (h x).1).2.trans (h x).2⟩

theorem noNew_rel {P : Elem → Elem → Prop} (hP : ∀ e e', P e e' → PlainSrc Req e → PlainSrc Req e') {a b : Node} (h : Node.Rel P a b) :
    NoNew Req a b := fun x => ⟨rel_all hP h x, (rel_notes h).symm ▸ List.Sublist.refl _⟩

theorem noNew_edit {F : Ctx → Elem} (h : ∀ c, PlainSrc Req c.e → PlainSrc Req (F c)) (t : Node) : NoNew Req t (t.edit F) :=
  noNew_rel (P := fun e e' => PlainSrc Req e → PlainSrc Req e') (fun _ _ h => h) (rel_mapCtx h _ _ _ t)

theorem noNew_without (S : Ctx → Bool) (t : Node) : NoNew Req t (t.without S) :=
  fun x => ⟨all_pruneCtx t x, notes_pruneCtx t⟩

theorem noNew_optionalsIf {b : Bool} {fs : List Finder} {t t' : Node}
    (h : (if b then removeOptionals fs t else .ok t) = .ok t') : NoNew Req t t' := by
  cases b with
  | false => cases h; exact .refl _
  | true =>
    refine foldE_inv (NoNew Req t) fs t t' ?_ (.refl _) h
    intro s f s' _ hs hst
    split at hst
    · cases hst
    · cases hst
      rw [removeAll_without]
      exact hs.comp (noNew_without _ _)

theorem noNew_replaced {Sel : Ctx → Prop} {Q : Ctx → Node → Prop} {t t' : Node} (h : Replaced Sel Q t t')
    (hQ : ∀ c n, c.node.All (PlainSrc Req) → Sel c → Q c n → n.All (PlainSrc Req) ∧ n.notes.Sublist c.node.notes) : NoNew Req t t' := by
  intro x
  refine ⟨(h.mono (Q' := fun c n => Sel c ∧ Q c n) (fun _ _ => Iff.rfl) (fun _ _ _ h1 h2 => ⟨h1, h2⟩)).all x
    (fun c n hc hn => (hQ c n hc hn.1 hn.2).1), ?_⟩
  obtain ⟨R, h1, h2, rfl⟩ := h
  refine notes_substCtx t (fun c hc n hn => ?_)
  obtain ⟨_, hs, hq⟩ := Replaced.select h1 h2 hc hn
  exact (hQ c n (all_of_walk t x c hc) hs hq).2

/-! ## Helpers: fields -/

theorem noNew_custom {alts : List XAlt} {m : List (String × String)} {g : Ctx → Except Err Node} {t t' : Node}
    (h : (⟨alts, m, .custom g⟩ : Trans).translate t = .ok t')
    (hg : ∀ c n, c.node.All (PlainSrc Req) → alts.any (fun a => a.selects m c) = true → g c = .ok n →
      n.All (PlainSrc Req) ∧ n.notes.Sublist c.node.notes) : NoNew Req t t' :=
  noNew_replaced (translate_custom h) hg

theorem text_retag {tag : QName} (h : tag ∉ sourceTags) {e : Elem} {ks : List Node}
    (he : (Node.elem e ks).All (PlainSrc Req)) : (Node.elem { e with tag := tag } ks).All (PlainSrc Req) :=
  ⟨fun _ hs => absurd hs h, he.2⟩

theorem noNew_value {n : String} (hX : XName.resolve Tables.cybox201_nsmap ⟨"HTTPSessionObj", n⟩ ∉ sourceTags) {t t' : Node}
    (h : (⟨[rel "HTTPSessionObj" n], Tables.cybox201_nsmap, .value (some ⟨"URIObj", "Value"⟩) none true []⟩ : Trans).translate t
      = .ok t') : NoNew Req t t' := by
  rw [translate_value_eq] at h
  refine noNew_custom h (fun c nn hc hs hn => ?_)
  rw [rel_selects] at hs
  unfold translateValue valueNode at hn
  simp only at hn
  cases hf : (childCtxs c 0 c.kids).find? (fun k => decide (k.e.tag = XName.resolve Tables.cybox201_nsmap ⟨"URIObj", "Value"⟩)) with
  | none => rw [hf] at hn; cases hn
  | some k =>
    rw [hf] at hn
    simp only [Except.ok.injEq] at hn
    subst hn
    exact ⟨⟨fun _ hsrc => absurd (show c.e.tag ∈ sourceTags from hsrc) (by rw [hs.2]; exact hX), trivial⟩, List.nil_sublist _⟩

theorem noNew_refresh {t t' : Node} (h : transRefresh.translate t = .ok t') : NoNew Req t t' := by
  unfold transRefresh at h
  rw [translate_value_eq] at h
  refine noNew_custom h (fun c n hc hs hn => ?_)
  simp only [translateValue, valueNode, Except.ok.injEq] at hn
  subst hn
  exact ⟨⟨hc.1, trivial⟩, List.nil_sublist _⟩

theorem noNew_renamed {p n : String} {m : List (String × String)} {tag : QName} (h2 : tag ∉ sourceTags) {t t' : Node}
    (h : (⟨[rel p n], m, .renamed tag⟩ : Trans).translate t = .ok t') : NoNew Req t t' := by
  rw [translate_renamed] at h
  cases h
  refine noNew_edit (fun c x => ?_) t
  unfold renBelow ren1
  split
  · exact x
  · intro hr hsrc
    dsimp only at hsrc
    split at hsrc
    · exact absurd hsrc h2
    · exact x hr hsrc

theorem noNew_mailslot {t t' : Node} (h : transMailslot.translate t = .ok t') : NoNew Req t t' := by
  refine noNew_replaced (translate_parent h) ?_
  rintro c n hc _ ⟨e, ks, hk, _, rfl⟩
  exact ⟨text_retag (by decide) (alls_iff.1 hc.2 _ hk), notes_mem (n := .elem e ks) hk⟩

theorem noNew_fields {fs : List Trans} (hf : ∀ f ∈ fs, ∀ a b, f.translate a = .ok b → NoNew Req a b) {t t' : Node}
    (h : translateFields fs t = .ok t') : NoNew Req t t' :=
  foldE_inv (NoNew Req t) fs t t' (fun s f s' hm hs hst => hs.comp (hf f hm s s' hst)) (.refl _) h

theorem noNew_fields201 {t t' : Node} (h : translateFields cybox201Translatable t = .ok t') : NoNew Req t t' := by
  refine noNew_fields (fun f hf a b hab => ?_) h
  simp only [cybox201Translatable, List.mem_cons, List.not_mem_nil, or_false] at hf
  rcases hf with rfl | rfl | rfl | rfl | rfl | rfl | rfl | rfl
  · exact noNew_value (by decide +kernel) hab
  · exact noNew_value (by decide +kernel) hab
  · exact noNew_refresh hab
  · exact noNew_renamed (by decide) hab
  · exact noNew_renamed (by decide) hab
  · exact noNew_renamed (by decide) hab
  · exact noNew_renamed (by decide) hab
  · exact noNew_mailslot hab

theorem text_wrap {tag : QName} {ks : List Node} (h : ∀ k ∈ ks, k.All (PlainSrc Req)) :
    (newElem tag [] none ks).All (PlainSrc Req) := ⟨fun _ _ _ h => (by cases h), alls_iff.2 h⟩

theorem notess_sources : ∀ (ks : List Node), (∀ k ∈ ks, ∃ e es, k = .elem e es) → Node.notess (ks.map asSource) = Node.notess ks
  | [], _ => rfl
  | k :: ks, hk => by
    obtain ⟨e, es, rfl⟩ := hk k (by simp)
    simp only [List.map_cons, Node.notess, notess_sources ks (fun k hk' => hk k (by simp [hk'])), asSource, Node.notes, List.append_nil]

theorem noNew_fields101 {w : World} {t t' : Node} (h : translateFields (stix101Cls w).translatable t = .ok t') : NoNew Req t t' := by
  have h' : translateFields [transContributors, transExploitTargets] t = .ok t' := h
  refine noNew_fields (fun f hf a b hab => ?_) h'
  simp only [List.mem_cons, List.not_mem_nil, or_false] at hf
  rcases hf with rfl | rfl
  · refine noNew_custom hab (fun c n hc _ hn => ?_)
    obtain ⟨y1, rfl⟩ := sourcesOf hn
    refine ⟨text_wrap (fun k hk => ?_), ?_⟩
    · obtain ⟨x, hx, rfl⟩ := List.mem_map.1 hk
      obtain ⟨e, es, rfl⟩ := y1 x hx
      exact text_wrap (fun k' hk' => by
        simp only [List.mem_singleton] at hk'
        subst hk'
        exact text_retag (by decide) (alls_iff.1 hc.2 _ hx))
    · simp only [Ctx.node, Node.notes, notess_sources c.kids y1]
      exact List.Sublist.refl _
  · refine noNew_custom hab (fun c n hc _ hn => ?_)
    cases hn
    refine ⟨text_wrap (fun k hk => ?_), ?_⟩
    · simp only [List.mem_singleton] at hk
      subst hk
      exact hc
    · simp only [newElem, Node.notes, Node.notess, List.append_nil, Ctx.node]
      exact List.Sublist.refl _

theorem noNew_source (hr : Req) {alts : List XAlt} {m : List (String × String)} {tag : QName}
    {d d' : NsMap} {g : Ctx → Except Err Node} (hg : ∀ c, xmlPlain (formatText c.e.text) = true →
      g c = .ok (sourceNode tag d d' (formatText c.e.text))) (hs : ∀ a ∈ alts, a.tag.resolve m ∈ sourceTags) {t t' : Node}
    (h : (⟨alts, m, .custom g⟩ : Trans).translate t = .ok t') : NoNew Req t t' := by
  refine noNew_custom h (fun c n hc hsel hn => ?_)
  have htag : c.e.tag ∈ sourceTags := by
    obtain ⟨a, ha, hc⟩ := List.any_eq_true.1 hsel
    unfold XAlt.selects at hc
    simp only [Bool.and_eq_true, decide_eq_true_eq] at hc
    rw [hc.1.1]; exact hs a ha
  rw [hg c (plain_text (hc.1 hr htag)).1] at hn
  cases hn
  have white : ∀ s : String, (∀ ch ∈ s.toList, ch ∉ ['<', '>', '&', '\r']) → ∀ x, some s = some x →
      ∀ ch ∈ x.toList, ch ∉ ['<', '>', '&', '\r'] := fun s h x e => by cases e; exact h
  exact ⟨⟨fun _ _ => white _ (by decide), ⟨fun _ _ => white _ (by decide),
    ⟨fun _ _ => white _ (plain_text (hc.1 hr htag)).2, trivial⟩, trivial⟩, trivial⟩, List.nil_sublist _⟩

theorem noNew_fields11 (hr : Req) {w : World} {t t' : Node} (h : translateFields (stix11Cls w).translatable t = .ok t') : NoNew Req t t' := by
  have h' : translateFields [transCommonSource w, transSightingsSource w, transRelatedCampaign] t = .ok t' := h
  refine noNew_fields (fun f hf a b hab => ?_) h'
  simp only [List.mem_cons, List.not_mem_nil, or_false] at hf
  rcases hf with rfl | rfl | rfl
  · exact noNew_source hr (g := translateCommonSource w) (tag := ⟨some nsCommon, "Source"⟩) (d := [(some "stixCommon", nsCommon)]) (d' := [])
      (fun c hc => by unfold translateCommonSource; simp only [hc, if_true]) (by decide +kernel) hab
  · exact noNew_source hr (g := translateSightingSource w) (tag := ⟨some nsIndicator, "Source"⟩) (d := [(some "indicator", nsIndicator)])
      (d' := [(some "stixCommon", nsCommon)]) (fun c hc => by unfold translateSightingSource; simp only [hc, if_true])
      (by decide +kernel) hab
  · refine noNew_custom hab (fun c n hc _ hn => ?_)
    cases hn
    refine ⟨text_wrap (fun k hk => ?_), ?_⟩
    · simp only [List.mem_singleton] at hk
      subst hk
      exact text_retag (by decide) hc
    · simp only [newElem, copyRetag, Node.notes, Node.notess, List.append_nil, Ctx.node]
      exact List.Sublist.refl _

/-! ## Helpers: steps -/

theorem noNew_touch (u : Cls) (i v : String) (t : Node) : NoNew Req t (stixUpdateVersions u i v (u.updateSchemalocs t)) :=
  noNew_rel (fun _ _ h => text_data h.1 h.2) (Node.Rel.comp touched_trans (touched_schemaloc _ t) (touched_versions _ _ _ _))

theorem noNew_vocabsIf {b : Bool} {vs : List Vocab} (hv : ∀ v ∈ vs, ∀ p ∈ v.terms, p ∈ correctedTerms) {t t' : Node}
    (h : (if b then updateVocabs vs t else .ok t) = .ok t') : NoNew Req t t' :=
  noNew_rel (fun _ _ => text_vocab) (vocabsIf_rel hv h)

theorem noNew_update20 {m : List (String × String)} {sel : List XAlt} {o : Options} {t t' : Node}
    (h : cybox20Update (cybox20Cls m sel) o t = .ok t') : NoNew Req t t' := by
  simp only [cybox20Update] at h
  rw [updateSchemalocs_eq, cybox20Versions_eq, updateLists_eq] at h
  refine (noNew_edit (text_schemaloc _) t).comp ((noNew_edit (fun c x => ?_) _).comp ((noNew_edit (fun c x => ?_) _).comp
    (noNew_vocabsIf (by simp only [cybox20Cls]; decide) h)))
  · unfold versionEdit
    split
    · exact x
    · exact x
  · exact text_iter _ x

theorem noNew_update201 {m : List (String × String)} {sel : List XAlt} {o : Options} {t t' : Node}
    (h : cybox201Update (cybox201Cls m sel) o t = .ok t') : NoNew Req t t' := by
  simp only [cybox201Update] at h
  split at h
  · cases h
  · next t1 h1 =>
    split at h
    · cases h
    · next t2 h2 =>
      exact (noNew_rel (fun _ _ => text_prep) (prep_pass m sel t)).comp ((noNew_fields201 h1).comp
        ((noNew_vocabsIf (by simp only [cybox201Cls]; decide) h2).comp (noNew_optionalsIf h)))

theorem noNew_update12 {o : Options} {t t' : Node} (h : stix12.update o t = .ok t') : NoNew Req t t' := by
  simp only [stix12, stix12Update, Except.ok.injEq] at h
  rw [updateSchemalocs_eq, updateNamespaces_eq] at h
  subst h
  refine (noNew_edit (F := nsEdit stix12Cls) (fun c x => ?_) t).comp ((noNew_edit (text_schemaloc stix12Cls) _).comp ?_)
  · unfold nsEdit
    split
    · next hu =>
      exact fun _ hs => absurd hs (renamed_source (by decide +kernel) hu)
    · exact x
  · cases (t.edit (nsEdit stix12Cls)).edit (schemalocEdit stix12Cls) with
    | other _ _ => exact .refl _
    | elem e ks => exact fun x => ⟨x, List.Sublist.refl _⟩

theorem noNew_update {w : World} {u : Updater} (hu : Registered w u) (hr : u = stix11 w → Req) {o : Options} {t t' : Node}
    (h : u.update o t = .ok t') : NoNew Req t t' := by
  cases hu with
  | cybox20 => exact noNew_update20 h
  | cybox201 => exact noNew_update201 h
  | stix10 =>
    simp only [stix10, stix10Update] at h
    split at h
    · cases h
    · next t1 h1 =>
      rw [updateNamespaces_none (u := stix10Cls) rfl] at h
      exact (noNew_update20 h1).comp ((noNew_touch _ _ _ _).comp (noNew_vocabsIf (by decide) h))
  | stix101 =>
    simp only [stix101, stix101Update] at h
    split at h
    · cases h
    · next t1 h1 =>
      rw [updateNamespaces_none (u := stix101Cls w) rfl] at h
      split at h
      · cases h
      · next t2 h2 =>
        split at h
        · cases h
        · next t3 h3 =>
          exact (noNew_update201 h1).comp ((noNew_touch _ _ _ _).comp ((noNew_fields101 h2).comp
            ((noNew_vocabsIf (by simp only [stix101Cls]; decide) h3).comp (noNew_optionalsIf h))))
  | stix11 =>
    simp only [stix11, stix11Update] at h
    split at h
    · cases h
    · next t2 h2 =>
      split at h
      · cases h
      · next t3 h3 =>
        have h0 : NoNew Req t (stix11Cybox.updateSchemalocs t) := noNew_rel (fun _ _ h => text_data h.1 h.2) (touched_schemaloc _ t)
        exact h0.comp ((noNew_touch _ _ _ _).comp ((noNew_fields11 (hr rfl) h2).comp
          ((noNew_vocabsIf (by simp only [stix11Cls]; decide) h3).comp (noNew_optionalsIf h))))
  | stix111 =>
    simp only [stix111, stix111Update] at h
    exact (noNew_touch _ _ _ _).comp (noNew_vocabsIf (by decide) h)
  | stix12 => exact noNew_update12 h

/-- Cleaning. -/
theorem noNew_clean {w : World} {u : Updater} (hu : Registered w u) {o : Options} {k k' : Nat} {t : Node}
    {r : Result} (hc : clean u o k t = .ok (r, k')) : NoNew Req t r.doc := by
  obtain ⟨rules, nss, ty, V, hr⟩ := registered_rules hu
  obtain ⟨F, l, ν, n, hF, hl, h1, h2, h3, h4, _⟩ := clean_spec hr hc
  have hrel : Node.Rel (fun e e' => PlainSrc Req e → PlainSrc Req e') t (t.edit F) := rel_mapCtx_mem _ _ _ t (fun c hct => by
    by_cases hD : DupAt nss t c
    · rw [h1 c hct hD]; exact fun x => x
    · rw [h2 c hct hD]; exact fun x => x)
  rw [h3]
  exact (noNew_rel (fun _ _ h => h) hrel).comp (noNew_without _ _)

theorem noNew_chain {w : World} (reg : List (String × Updater))
    (hreg : ∀ v u, assoc reg v = some u → Registered w u ∧ (u = stix11 w → Req)) (o : Options) (force : Bool) :
    ∀ (vs : List String) (acc : Result) (k : Nat) (r : Result) (k' : Nat),
    chainLoop reg o force vs acc k = .ok (r, k') → NoNew Req acc.doc r.doc
  | [], acc, k, r, k', h => by
    simp only [chainLoop, Except.ok.injEq, Prod.mk.injEq] at h
    rw [h.1]
    exact .refl _
  | v :: vs, acc, k, r, k', h => by
    simp only [chainLoop] at h
    split at h
    · cases h
    · next u hu =>
      split at h
      · cases h
      · next r1 k1 hs =>
        refine NoNew.comp ?_ (noNew_chain reg hreg o force vs _ k1 r k' h)
        show NoNew Req acc.doc r1.doc
        obtain ⟨r2, h1, _, _, h4⟩ := step_parts hs
        refine NoNew.comp ?_ (noNew_update (hreg v u hu).1 (hreg v u hu).2 h1)
        rcases h4 with ⟨rfl, _⟩ | hc
        · exact .refl _
        · exact noNew_clean (hreg v u hu).1 hc

/-! ## Helpers: no field that loses anything -/

theorem finished_notes {o : Options} (ho : o.removeOptionals = false) {L : Node → Ctx → Prop} {b t' : Node} (h : Finished o L b t') :
    t'.notes = b.notes := by
  obtain ⟨d, h1, _, h3, _⟩ := h
  rw [h3 ho, rel_notes h1]

theorem cyboxFields_notes {Q : Ctx → Node → Prop} {o : Options} (ho : o.removeOptionals = false) {t t' : Node} (h : CyboxFields Q o t t')
    (ht : t.All Lossless) : t'.notes = t.notes := by
  obtain ⟨a, b, c, d, e, f, h1, h2, h3, h4, h5, h6, h7⟩ := h
  have ha : a.All Lossless := rel_all (A := Lossless) (fun _ _ => lossless_prep) h1 ht
  obtain rfl := lossless_none h2 ha (fun c hc => by rw [hc.2]; decide)
  obtain rfl := lossless_none h3 ha (fun c hc => by rw [hc.2]; decide)
  obtain rfl := lossless_none h4 ha (fun c hc => by rw [hc.2]; decide)
  have he : e.All Lossless := by
    have h5' := h5
    unfold Respelt at h5'
    subst h5'
    refine all_edit ha (fun c _ hp => ?_)
    split
    · exact hp
    · intro hx
      have : ∀ q ∈ lossyTags, ∀ p ∈ spelling, p.2 ≠ q := by decide +kernel
      exact hp (by rw [respell_inv rfl (this _ hx)]; exact hx)
  obtain rfl := lossless_none h6 he (fun c hc => by rw [hc.2.1]; decide)
  unfold Respelt at h5
  rw [finished_notes ho h7, h5, rel_notes (rel_mapCtx (P := fun _ _ => True) (fun _ => trivial) _ _ _ _), rel_notes h1]

theorem replaced_notes {Sel : Ctx → Prop} {Q : Ctx → Node → Prop} {t t' : Node} (h : Replaced Sel Q t t')
    (hQ : ∀ c n, Q c n → n.notes = c.node.notes) : t'.notes = t.notes := by
  obtain ⟨R, h1, h2, rfl⟩ := h
  refine same_substCtx t (fun c hc n hn => ?_)
  obtain ⟨_, hs, hq⟩ := Replaced.select h1 h2 hc hn
  exact hQ c n hq

theorem update_notes {w : World} {u : Updater} (hu : Registered w u) {o : Options} (ho : o.removeOptionals = false) {t t' : Node}
    (h : u.update o t = .ok t') (ht : t.All Lossless) : t'.notes = t.notes := by
  have touched : ∀ {a b : Node}, Node.Rel StixTouched a b → a.All Lossless → b.All Lossless :=
    fun hr ha => rel_all (A := Lossless) (fun _ _ he hp => by unfold Lossless; rw [touched_tag he]; exact hp) hr ha
  cases hu with
  | cybox20 =>
    exact rel_notes (skeleton_rel (L := vocabNames ++ cyboxVersionNames)
      (skeleton_cybox20 (fun _ hq => List.mem_append_left _ hq) (fun _ hq => List.mem_append_right _ hq) h))
  | cybox201 => exact cyboxFields_notes ho (C28_partial _ _ o t t' h) ht
  | stix10 => exact rel_notes (skeleton_rel (skeleton_stix10 h))
  | stix101 =>
    obtain ⟨a, b, c, d, g1, g2, g3, g4, g5⟩ := stix101_fields h
    have l2 := touched g2 (cyboxFields_lossless g1 ht).1
    obtain rfl := lossless_none g3 l2 (fun c hc => by rw [hc.2]; decide)
    rw [finished_notes ho g5, replaced_notes g4, rel_notes g2, cyboxFields_notes ho g1 ht]
    rintro x n rfl
    simp only [Ctx.node, Node.notes, Node.notess, List.append_nil]
  | stix11 =>
    obtain ⟨a, b, c, d, g1, g2, g3, g4, g5⟩ := stix11_stages h
    have l1 := touched g1 ht
    obtain rfl := lossless_none g2 l1 (fun c ⟨p, _, hc⟩ => by rw [hc.1]; decide)
    obtain rfl := lossless_none g3 l1 (fun c hc => by rw [hc.1]; decide)
    rw [finished_notes ho g5, replaced_notes g4, rel_notes g1]
    rintro x n rfl
    simp only [Ctx.node, Node.notes, Node.notess, List.append_nil]
  | stix111 => exact rel_notes (skeleton_rel (skeleton_stix111 h))
  | stix12 => exact rel_notes (stix12_rel h)

theorem chain_notes {w : World} (reg : List (String × Updater))
    (hreg : ∀ v u, assoc reg v = some u → Registered w u) (o : Options) (ho : o.removeOptionals = false) :
    ∀ (vs : List String) (acc : Result) (k : Nat) (r : Result)
    (k' : Nat), chainLoop reg o false vs acc k = .ok (r, k') → acc.doc.All Lossless → r.doc.notes = acc.doc.notes
  | [], acc, k, r, k', h, _ => by simp only [chainLoop, Except.ok.injEq, Prod.mk.injEq] at h; rw [h.1]
  | v :: vs, acc, k, r, k', h, ht => by
    simp only [chainLoop] at h
    split at h
    · cases h
    · next u hu =>
      split at h
      · cases h
      · next r1 k1 hs =>
        have h1 := unforced_update hs
        rw [chain_notes reg hreg o ho vs _ k1 r k' h (update_lossless (hreg v u hu) h1 ht).1]
        exact update_notes (hreg v u hu) ho h1 ht

/-! ## C66 -/

/-- C66: an update never invents, changes, doubles or reorders comments and processing instructions: those of the result, each with the
text after it, are some of those of the document, in the same order. This holds with any options, forced or not, over any number of
versions. Partial: for documents with plain sources. -/
theorem C66_subsequence_partial (w : World) (t : Node) (from_ to_ : Option String) (o : Options) (force : Bool) (k k' : Nat) (r : Result)
    (hu : update w t from_ to_ o force k = .ok (r, k')) (hs : SourcesPlain t) : r.doc.notes.Sublist t.notes := by
  obtain ⟨vs, reg, _, x, y, hreg, _, hc⟩ := update_chain hu
  exact (noNew_chain (Req := True) reg (fun v u h => ⟨(hreg v u h).1, fun _ => trivial⟩) o force _ _ k r k' hc
    (all_elems.2 (fun c hc _ => hs c hc))).2

/-- C66 for CybOX documents, whatever they contain. -/
theorem C66_cybox (t : Node) (from_ to_ : Option String) (o : Options) (force : Bool) (k k' : Nat) (r : Result)
    (h : cyboxUpdate t from_ to_ o force k = .ok (r, k')) : r.doc.notes.Sublist t.notes := by
  simp only [cyboxUpdate] at h
  split at h
  · cases h
  · simp only [runChain] at h
    split at h
    · cases h
    · exact (noNew_chain (Req := False) (w := w0) cyboxUpdaters
        (fun v u hu => ⟨registered_cybox hu, fun e => absurd e (cybox_not_stix11 hu)⟩) o force _ _ k r k' h
        (all_elems.2 (fun _ _ hr => hr.elim))).2

/-- C66: no comment and no text after one is lost by an update that is not forced and does not remove optional elements. Partial: for
documents without the seven elements whose translation keeps only a part of them. -/
theorem C66_kept_partial (w : World) (t : Node) (from_ to_ : Option String) (o : Options) (k k' : Nat) (r : Result)
    (hu : update w t from_ to_ o false k = .ok (r, k')) (ho : o.removeOptionals = false)
    (ht : ∀ c ∈ t.elems, c.e.tag ∉ lossyTags) : r.doc.notes = t.notes := by
  obtain ⟨vs, reg, _, x, y, hreg, _, hc⟩ := update_chain hu
  exact chain_notes reg (fun v u h => (hreg v u h).1) o ho _ _ k r k' hc (all_elems.2 ht)

/-! ### Cases that meet the hypotheses -/

/-- A CybOX document with comments and a `Source` with markup characters in its text. -/
def cyboxNotes : Node :=
  cyboxDoc v20 [.other "<!--a-->" (some "x"), el nsCyboxCore "Observable" [] [.other "<!--b-->" none, el nsCommon "Source" [] [] (some "<!--c-->")]]

example : cyboxNotes.notes = [("<!--a-->", some "x"), ("<!--b-->", none)] ∧ ¬ SourcesPlain cyboxNotes ∧
    ∃ r, cyboxUpdate cyboxNotes none (some "2.1") o0 true 0 = .ok r ∧ r.1.doc.notes = [("<!--a-->", some "x"), ("<!--b-->", none)] :=
  ⟨by decide +kernel, by unfold SourcesPlain; decide +kernel, ok_of_eval (by decide +kernel)⟩

/-- Comments in a package, in an exploit target and in an empty optional element. -/
def docNotes : Node :=
  stixDoc "1.0.1" [.other "<!--a-->" (some "x"), el nsTTP "Exploit_Targets" [] [el nsCommon "Exploit_Target" [] [.other "<!--b-->" none]],
    el "http://data-marking.mitre.org/Marking-1" "Marking_Structure" [] [.other "<!--c-->" none], .other "<?d?>" none]

example : docNotes.notes = [("<!--a-->", some "x"), ("<!--b-->", none), ("<!--c-->", none), ("<?d?>", none)] ∧
    (∀ c ∈ docNotes.elems, c.e.tag ∉ lossyTags) ∧ SourcesPlain docNotes ∧
    (∃ r, update w0 docNotes none (some "1.1") { o0 with removeOptionals := false } false 0 = .ok r ∧ r.1.doc.notes = docNotes.notes) ∧
    (∃ r, update w0 docNotes none (some "1.1") o0 true 0 = .ok r ∧
      r.1.doc.notes = [("<!--a-->", some "x"), ("<!--b-->", none), ("<?d?>", none)]) :=
  ⟨by decide +kernel, by decide +kernel, by unfold SourcesPlain; decide +kernel, ok_of_eval (by decide +kernel), ok_of_eval (by decide +kernel)⟩

/-! ### Where it fails -/

/-- A field with a comment beside its value. -/
def docNoteField : Node :=
  stixDoc "1.0.1" [el "http://cybox.mitre.org/objects#HTTPSessionObject-2" "DNT" []
    [.other "<!--a-->" none, el "http://cybox.mitre.org/objects#URIObject-2" "Value" [] [] (some "1")]]

/-- C66, negation: a comment beside the value of a field is lost, and so is one in an empty optional element. -/
theorem C66_lost_fails : (docNoteField.notes = [("<!--a-->", none)] ∧
      ∃ r, update w0 docNoteField none (some "1.1") { o0 with removeOptionals := false } false 0 = .ok r ∧ r.1.doc.notes = []) ∧
    ((stixDoc "1.0.1" [el "http://data-marking.mitre.org/Marking-1" "Marking_Structure" [] [.other "<!--c-->" none]]).notes = [("<!--c-->", none)] ∧
      ∃ r, update w0 (stixDoc "1.0.1" [el "http://data-marking.mitre.org/Marking-1" "Marking_Structure" [] [.other "<!--c-->" none]]) none (some "1.1") o0 false 0 = .ok r ∧
        r.1.doc.notes = []) :=
  ⟨⟨by decide +kernel, ok_of_eval (by decide +kernel)⟩, ⟨by decide +kernel, ok_of_eval (by decide +kernel)⟩⟩

/-- A source whose text is a comment (in the file `&lt;!--a--&gt;`). -/
def docNoteSource : Node := stixDoc "1.1" [el nsTTP "Intended_Effect" [] [el nsCommon "Source" [] [] (some "<!--a-->")]]

/-- A parser that reads the XML text made of it as any XML parser does. -/
def noteWorld : World :=
  { w0 with
    parseXml := fun s => if s = "\n        <stixCommon:Source xmlns:stixCommon=\"http://stix.mitre.org/common-1\">\n            <stixCommon:Identity>\n                <stixCommon:Name><!--a--></stixCommon:Name>\n            </stixCommon:Identity>\n        </stixCommon:Source>\n        "
      then some (.elem ⟨⟨some nsCommon, "Source"⟩, [(some "stixCommon", nsCommon)], [], some "\n            ", none⟩
        [.elem ⟨⟨some nsCommon, "Identity"⟩, [], [], some "\n                ", some "\n        "⟩
          [.elem ⟨⟨some nsCommon, "Name"⟩, [], [], none, some "\n            "⟩ [.other "<!--a-->" none]]])
      else none }

/-- C66, negation: text of a source that looks like a comment becomes one; the document had no comment. -/
theorem C66_markup_fails : docNoteSource.notes = [] ∧
    ∃ r, update noteWorld docNoteSource none (some "1.1.1") o0 false 0 = .ok r ∧ r.1.doc.notes = [("<!--a-->", none)] :=
  ⟨by decide +kernel, ok_of_eval (by decide +kernel)⟩

end Ramrod
