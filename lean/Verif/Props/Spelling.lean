import Verif.Props.Split
import Verif.Props.Refuse
import Verif.Props.Order
/-!
# C72: The same version in another spelling
-/

namespace Ramrod

/-! ## Specification -/

/-- Two elements that differ at most in the values of the attributes `names`; no attribute name occurs twice. -/
structure SameBut (names : List QName) (e e' : Elem) : Prop where
  tag : e'.tag = e.tag
  decls : e'.decls = e.decls
  text : e'.text = e.text
  tail : e'.tail = e.tail
  keys : e'.attrs.map (·.1) = e.attrs.map (·.1)
  nodup : (e.attrs.map (·.1)).Nodup
  vals : ∀ q, q ∉ names → e'.get? q = e.get? q

/-- The two STIX versions are the same numbers. -/
def SameStix (e e' : Elem) : Prop := ∃ x x' n, ReadsStix e x ∧ ReadsStix e' x' ∧ VersionForm x n ∧ VersionForm x' n

/-- The two CybOX versions are the same numbers. -/
def SameCybox (e e' : Elem) : Prop := ∃ x x' n, ReadsCybox e x ∧ ReadsCybox e' x' ∧ VersionForm x n ∧ VersionForm x' n

/-! ## Helpers: attributes -/

theorem attrs_getNone {k : QName} : ∀ {as : Attrs}, Attrs.get? as k = none ↔ k ∉ as.map (·.1)
  | [] => by simp [Attrs.get?]
  | (k', v) :: as => by
    simp only [Attrs.get?, List.map_cons, List.mem_cons, not_or]
    by_cases h : k' = k
    · subst h; simp
    · rw [if_neg h, attrs_getNone]
      exact ⟨fun hn => ⟨fun hk => h hk.symm, hn⟩, fun hn => hn.2⟩

theorem attrs_keys_set {k : QName} {v : String} : ∀ as : Attrs,
    (Attrs.set as k v).map (·.1) = if k ∈ as.map (·.1) then as.map (·.1) else as.map (·.1) ++ [k]
  | [] => by simp [Attrs.set]
  | (k', v') :: as => by
    simp only [Attrs.set, List.map_cons, List.mem_cons]
    by_cases h : k' = k
    · subst h; simp
    · have h' : ¬ k = k' := fun e => h e.symm
      rw [if_neg h]
      simp only [List.map_cons, attrs_keys_set as, h', false_or]
      split <;> simp

theorem attrs_keys_del {k : QName} (as : Attrs) : (Attrs.del as k).map (·.1) = (as.map (·.1)).filter (fun q => decide (q ≠ k)) := by
  rw [List.filter_map]
  rfl

theorem attrs_ext : ∀ {as bs : Attrs}, bs.map (·.1) = as.map (·.1) → (as.map (·.1)).Nodup →
    (∀ q, Attrs.get? bs q = Attrs.get? as q) → bs = as
  | [], [], _, _, _ => rfl
  | [], _ :: _, h, _, _ => by cases h
  | _ :: _, [], h, _, _ => by cases h
  | (k, v) :: as, (k', v') :: bs, h, hn, hg => by
    simp only [List.map_cons, List.cons.injEq] at h
    obtain ⟨hk, hr⟩ := h
    subst hk
    have h0 := hg k'
    simp only [Attrs.get?, if_true, Option.some.injEq] at h0
    subst h0
    simp only [List.map_cons, List.nodup_cons] at hn
    rw [attrs_ext hr hn.2 (fun q => ?_)]
    have hq := hg q
    simp only [Attrs.get?] at hq
    by_cases h1 : k' = q
    · subst h1
      rw [attrs_getNone.2 hn.1, attrs_getNone.2 (by rw [hr]; exact hn.1)]
    · rwa [if_neg h1, if_neg h1] at hq

theorem SameBut.symm {names : List QName} {e e' : Elem} (h : SameBut names e e') : SameBut names e' e :=
  ⟨h.tag.symm, h.decls.symm, h.text.symm, h.tail.symm, h.keys.symm, by rw [h.keys]; exact h.nodup, fun q hq => (h.vals q hq).symm⟩

theorem SameBut.mono {names names' : List QName} {e e' : Elem} (h : SameBut names e e') (hs : ∀ q ∈ names, q ∈ names') :
    SameBut names' e e' := ⟨h.tag, h.decls, h.text, h.tail, h.keys, h.nodup, fun q hq => h.vals q (fun hm => hq (hs q hm))⟩

theorem SameBut.eq {e e' : Elem} (h : SameBut [] e e') : e' = e := by
  have ha : e'.attrs = e.attrs := attrs_ext h.keys h.nodup (fun q => h.vals q (by simp))
  obtain ⟨t, d, a, x, y⟩ := e
  obtain ⟨t', d', a', x', y'⟩ := e'
  have := h.tag; have := h.decls; have := h.text; have := h.tail
  simp_all

theorem SameBut.has {names : List QName} {e e' : Elem} (h : SameBut names e e') (q : QName) : e'.has q = e.has q := by
  rw [Elem.has_eq, Elem.has_eq, Bool.eq_iff_iff, Option.isSome_iff_ne_none, Option.isSome_iff_ne_none]
  show ¬ Attrs.get? e'.attrs q = none ↔ ¬ Attrs.get? e.attrs q = none
  rw [attrs_getNone, attrs_getNone, h.keys]

theorem SameBut.set {names : List QName} {e e' : Elem} (h : SameBut names e e') (k : QName) (v : String) :
    SameBut (names.filter (fun q => decide (q ≠ k))) (e.set k v) (e'.set k v) := by
  refine ⟨h.tag, h.decls, h.text, h.tail, ?_, ?_, fun q hq => ?_⟩
  · show (Attrs.set e'.attrs k v).map (·.1) = (Attrs.set e.attrs k v).map (·.1)
    rw [attrs_keys_set, attrs_keys_set, h.keys]
  · show ((Attrs.set e.attrs k v).map (·.1)).Nodup
    rw [attrs_keys_set]
    split
    · exact h.nodup
    · next hk =>
      rw [List.nodup_append]
      refine ⟨h.nodup, by simp, fun a ha b hb => ?_⟩
      rw [List.mem_singleton] at hb
      subst hb
      exact fun e => hk (e ▸ ha)
  · rw [Elem.get?_set, Elem.get?_set]
    by_cases hk : k = q
    · rw [if_pos hk, if_pos hk]
    · rw [if_neg hk, if_neg hk]
      exact h.vals q (fun hm => hq (List.mem_filter.2 ⟨hm, decide_eq_true (fun e => hk e.symm)⟩))

theorem SameBut.del {names : List QName} {e e' : Elem} (h : SameBut names e e') (k : QName) :
    SameBut (names.filter (fun q => decide (q ≠ k))) (e.del k) (e'.del k) := by
  refine ⟨h.tag, h.decls, h.text, h.tail, ?_, ?_, fun q hq => ?_⟩
  · show (Attrs.del e'.attrs k).map (·.1) = (Attrs.del e.attrs k).map (·.1)
    rw [attrs_keys_del, attrs_keys_del, h.keys]
  · show ((Attrs.del e.attrs k).map (·.1)).Nodup
    rw [attrs_keys_del]
    exact h.nodup.filter _
  · rw [Elem.get?_del, Elem.get?_del]
    by_cases hk : k = q
    · rw [if_pos hk, if_pos hk]
    · rw [if_neg hk, if_neg hk]
      exact h.vals q (fun hm => hq (List.mem_filter.2 ⟨hm, decide_eq_true (fun e => hk e.symm)⟩))

theorem SameBut.put {names : List QName} {e e' : Elem} (h : SameBut names e e') (k : QName) (v : String) :
    SameBut names (e.set k v) (e'.set k v) := (h.set k v).mono (fun _ hq => (List.mem_filter.1 hq).1)

/-! ## Documents -/

/-- Two documents that differ at most in the values of the attributes `names` of the root. -/
def Near (T : QName) (names : List QName) (t t' : Node) : Prop :=
  ∃ e e' ks, t = .elem e ks ∧ t' = .elem e' ks ∧ e.tag = T ∧ SameBut names e e'

variable {T T' : QName} {names names' : List QName} {t t' : Node}

theorem Near.symm (h : Near T names t t') : Near T names t' t := by
  obtain ⟨e, e', ks, rfl, rfl, ht, hs⟩ := h
  exact ⟨e', e, ks, rfl, rfl, hs.tag.trans ht, hs.symm⟩

theorem Near.eq (h : Near T [] t t') : t' = t := by
  obtain ⟨e, e', ks, rfl, rfl, _, hs⟩ := h
  rw [hs.eq]

theorem Near.descs (h : Near T names t t') : t'.descs = t.descs := by
  obtain ⟨e, e', ks, rfl, rfl, _, hs⟩ := h
  rw [descs_elem, descs_elem, hs.tag, hs.decls]

theorem Near.edit {F : Ctx → Elem} (h : Near T names t t')
    (hF : ∀ env e e' ks, e.tag = T → SameBut names e e' →
      (F ⟨[], env, [], e, ks⟩).tag = T' ∧ SameBut names' (F ⟨[], env, [], e, ks⟩) (F ⟨[], env, [], e', ks⟩)) :
    Near T' names' (t.edit F) (t'.edit F) := by
  obtain ⟨e, e', ks, rfl, rfl, ht, hs⟩ := h
  obtain ⟨h1, h2⟩ := hF (e.decls ++ []) e e' ks ht hs
  refine ⟨_, _, Node.mapCtxs F [] 0 (e.decls ++ []) [e.tag] ks, rfl, ?_, h1, h2⟩
  simp only [Node.mapCtx]
  rw [hs.tag, hs.decls]

theorem Near.modifyAt {g : Elem → Elem} (h : Near T names t t') (p : Pos) (hg : p = [] → ∀ e e', SameBut names e e' →
    (g e).tag = e.tag ∧ SameBut names (g e) (g e')) : Near T names (t.modifyAt p g) (t'.modifyAt p g) := by
  obtain ⟨e, e', ks, rfl, rfl, ht, hs⟩ := h
  simp only [Node.modifyAt, Node.mapPos]
  by_cases hp : ([] : Pos) = p
  · simp only [if_pos hp]
    obtain ⟨h1, h2⟩ := hg hp.symm e e' hs
    exact ⟨_, _, _, rfl, rfl, h1.trans ht, h2⟩
  · simp only [if_neg hp]
    exact ⟨_, _, _, rfl, rfl, ht, hs⟩

theorem Near.modifyAll {g : Elem → Elem} : ∀ (ps : List Pos) {t t' : Node}, Near T names t t' → (∀ p ∈ ps, p ≠ []) →
    Near T names (t.modifyAll ps g) (t'.modifyAll ps g)
  | [], _, _, h, _ => h
  | p :: ps, _, _, h, hp => Near.modifyAll ps (h.modifyAt p (fun e => absurd e (hp p (by simp)))) (fun q hq => hp q (by simp [hq]))

theorem Near.replaceAll (h : Near T names t t') (l : List (Pos × Node)) : Near T names (t.replaceAll l) (t'.replaceAll l) := by
  obtain ⟨e, e', ks, rfl, rfl, ht, hs⟩ := h
  exact ⟨e, e', Node.substs (fun p => if p = [] then none else posLookup l p) [] 0 ks, by simp only [Node.replaceAll, Node.subst, if_true],
    by simp only [Node.replaceAll, Node.subst, if_true], ht, hs⟩

theorem Near.removeAll (h : Near T names t t') (ps : List Pos) : Near T names (t.removeAll ps) (t'.removeAll ps) := by
  obtain ⟨e, e', ks, rfl, rfl, ht, hs⟩ := h
  exact ⟨e, e', _, rfl, rfl, ht, hs⟩

/-- The path does not select the root. -/
def OffRoot (T : QName) (m : List (String × String)) (alts : List XAlt) : Prop :=
  ∀ c : Ctx, c.anc = [] → c.e.tag = T → alts.any (fun a => a.selects m c) = false

theorem Near.xpath (h : Near T names t t') {m : List (String × String)} {alts : List XAlt} (ha : OffRoot T m alts) :
    t'.xpath m alts = t.xpath m alts ∧ ∀ c ∈ t.xpath m alts, c ∈ t.descs := by
  have hd := h.descs
  obtain ⟨e, e', ks, rfl, rfl, ht, hs⟩ := h
  simp only [Node.xpath, elems_elem]
  have h1 := ha (rootCtx e ks) rfl ht
  have h2 := ha (rootCtx e' ks) rfl (hs.tag.trans ht)
  simp only [List.filter_cons, h1, h2, hd, Bool.false_eq_true, if_false]
  exact ⟨trivial, fun c hc => (List.mem_filter.1 hc).1⟩

/-- Below the root only. -/
def relPaths (alts : List XAlt) : Bool := alts.all (fun a => !a.abs || a.parent.isSome)

theorem offRoot_rel {m : List (String × String)} {alts : List XAlt} (h : relPaths alts = true) : OffRoot T m alts := by
  intro c hc _
  rw [List.any_eq_false]
  intro a ha hs
  have h1 := List.all_eq_true.1 h a ha
  unfold XAlt.selects at hs
  simp only [hc, List.length_nil, List.head?_nil] at hs
  cases hp : a.parent with
  | none =>
    simp only [hp, Option.isSome_none, Bool.or_false, Bool.not_eq_true'] at h1
    simp [hp, h1] at hs
  | some p => simp [hp] at hs

theorem offRoot_tags {m : List (String × String)} {alts : List XAlt} (h : alts.all (fun a => decide (a.tag.resolve m ≠ T)) = true) :
    OffRoot T m alts := by
  intro c _ ht
  rw [List.any_eq_false]
  intro a ha hs
  have h1 := List.all_eq_true.1 h a ha
  unfold XAlt.selects at hs
  simp only [Bool.and_eq_true, decide_eq_true_eq] at hs h1
  exact h1 (hs.1.1.symm.trans ht)

theorem sel_near {m : List (String × String)} {alts : List XAlt} {env : NsMap} {e e' : Elem} {ks : List Node} (h : SameBut names e e') :
    alts.any (fun a => a.selects m ⟨[], env, [], e', ks⟩) = alts.any (fun a => a.selects m ⟨[], env, [], e, ks⟩) := by
  congr 1
  funext a
  unfold XAlt.selects
  simp only [h.tag]
  congr 1
  cases a.pred with
  | none => rfl
  | hasAttr q => exact h.has _
  | hasChild _ => rfl

/-! ## Passes -/

theorem near_schemalocs (h : Near T names t t') (hn : tagSchemaLoc ∉ names) (u : Cls) :
    Near T names (u.updateSchemalocs t) (u.updateSchemalocs t') := by
  rw [updateSchemalocs_eq, updateSchemalocs_eq]
  refine h.edit (fun env e e' ks ht hs => ?_)
  simp only [schemalocEdit, List.isEmpty_nil, if_true]
  refine ⟨(updateSchemalocsElem_tag u e).trans ht, ?_⟩
  unfold Cls.updateSchemalocsElem
  rw [hs.vals _ hn]
  split
  · exact hs
  · exact hs.put _ _

theorem near_ns (h : Near T names t t') (u : Cls) :
    Near (if u.nsUpdated T then u.remappedTag T else T) names (u.updateNamespaces [] t) (u.updateNamespaces [] t') := by
  rw [updateNamespaces_eq, updateNamespaces_eq]
  refine h.edit (fun env e e' ks ht hs => ?_)
  simp only [nsEdit, hs.tag, ht]
  split
  · refine ⟨by simp only [Cls.updateNsmapElem, ht], ⟨?_, rfl, ?_, rfl, hs.keys, hs.nodup, hs.vals⟩⟩
    · simp only [Cls.updateNsmapElem, hs.tag]
    · simp only [Cls.updateNsmapElem, getNodeText, hs.text]
  · exact ⟨ht, hs⟩

/-- A change of the selected elements, the root among them. -/
theorem near_set (h : Near T names t t') {m : List (String × String)} {alts : List XAlt} {g : Elem → Elem}
    (hsel : ∀ c : Ctx, c.anc = [] → c.e.tag = T → alts.any (fun a => a.selects m c) = true)
    (hg : ∀ e e', SameBut names e e' → (g e).tag = e.tag ∧ SameBut names' (g e) (g e')) :
    Near T names' (t.edit (versionEdit m alts g)) (t'.edit (versionEdit m alts g)) := by
  refine h.edit (fun env e e' ks ht hs => ?_)
  have h1 := hsel ⟨[], env, [], e, ks⟩ rfl ht
  have h2 := hsel ⟨[], env, [], e', ks⟩ rfl (hs.tag.trans ht)
  simp only [versionEdit, h1, h2, if_true]
  exact ⟨(hg e e' hs).1.trans ht, (hg e e' hs).2⟩

/-- A change of selected elements, the root not among them. -/
theorem near_off (h : Near T names t t') {m : List (String × String)} {alts : List XAlt} {g : Elem → Elem} (ha : OffRoot T m alts) :
    Near T names (t.edit (versionEdit m alts g)) (t'.edit (versionEdit m alts g)) := by
  refine h.edit (fun env e e' ks ht hs => ?_)
  have h1 := ha ⟨[], env, [], e, ks⟩ rfl ht
  have h2 := ha ⟨[], env, [], e', ks⟩ rfl (hs.tag.trans ht)
  simp only [versionEdit, h1, h2, Bool.false_eq_true, if_false]
  exact ⟨ht, hs⟩

theorem near_lists (h : Near T names t t') (u : Cls) : Near T names (updateLists u t) (updateLists u t') := by
  rw [updateLists_eq, updateLists_eq]
  refine h.edit (fun env e e' ks ht hs => ?_)
  simp only [listsEdit, propsDepth, iter]
  exact ⟨ht, hs⟩

/-- What the pass does to a document it does to one near it. -/
def Tracks (T : QName) (names : List QName) (P : Node → Except Err Node) : Prop :=
  ∀ t t', Near T names t t' → ∀ s, P t = .ok s → ∃ s', P t' = .ok s' ∧ Near T names s s'

theorem Tracks.fold {α : Type} {f : Node → α → Except Err Node} : ∀ (l : List α),
    (∀ x ∈ l, Tracks T names (fun t => f t x)) → Tracks T names (fun t => foldE f t l)
  | [], _ => fun t t' hn s hs => by cases hs; exact ⟨t', rfl, hn⟩
  | x :: xs, h => fun t t' hn s hs => by
    simp only [foldE] at hs
    split at hs
    · cases hs
    · next d hd =>
      obtain ⟨d', hd', hn'⟩ := h x (by simp) t t' hn d hd
      simp only [foldE, hd']
      exact Tracks.fold xs (fun y hy => h y (by simp [hy])) d d' hn' s hs

theorem tracks_vocab (v : Vocab) : Tracks T names v.update := by
  intro t t' hn s hs
  have ht : getTypedNodes t' = getTypedNodes t := by simp only [getTypedNodes, hn.descs]
  simp only [Vocab.update, ht] at hs ⊢
  split at hs
  · cases hs
  · next found hf =>
    have hp : ∀ c ∈ found, c.pos ≠ [] := fun c hc => by
      rw [(filterE_filter hf).2, List.mem_filter] at hc
      exact typed_pos_ne t hc.1
    refine Tracks.fold found (fun c hc => ?_) t t' hn s hs
    intro t t' hn s hs
    simp only at hs ⊢
    split at hs
    · cases hs
    · next e' he =>
      cases hs
      exact ⟨_, rfl, hn.modifyAt _ (fun h => absurd h (hp c hc))⟩

theorem tracks_vocabs (vs : List Vocab) : Tracks T names (updateVocabs vs) := Tracks.fold vs (fun v _ => tracks_vocab v)

theorem tracks_translate (f : Trans) (hf : OffRoot T f.nsmap f.xpath) : Tracks T names f.translate := by
  intro t t' hn s hs
  obtain ⟨hx, hd⟩ := hn.xpath hf
  have hp : ∀ p ∈ (t.xpath f.nsmap f.xpath).map (·.pos), p ≠ [] := fun p hp => by
    obtain ⟨c, hc, rfl⟩ := List.mem_map.1 hp
    exact descs_pos_ne t (hd c hc)
  unfold Trans.translate at hs ⊢
  rw [hx]
  cases hk : f.kind with
  | renamed tag =>
    simp only [hk] at hs ⊢
    cases hs
    exact ⟨_, rfl, Near.modifyAll _ hn hp⟩
  | value p nt ca ov =>
    simp only [hk] at hs ⊢
    split at hs
    · cases hs
    · next l hl => cases hs; exact ⟨_, rfl, hn.replaceAll l⟩
  | custom g =>
    simp only [hk] at hs ⊢
    split at hs
    · cases hs
    · next l hl => cases hs; exact ⟨_, rfl, hn.replaceAll l⟩
  | parent g =>
    simp only [hk] at hs ⊢
    split at hs
    · cases hs
    · next l hl => cases hs; exact ⟨_, rfl, hn.replaceAll l⟩

theorem tracks_translates (fs : List Trans) (hf : ∀ f ∈ fs, OffRoot T f.nsmap f.xpath) : Tracks T names (translateFields fs) :=
  Tracks.fold fs (fun f h => tracks_translate f (hf f h))

/-! ## Searches -/

/-- The two searches fail alike or find the same positions, the root not among them. -/
def SameFind (x x' : Except Err (List Ctx)) : Prop :=
  (∀ a, x = .error a → x' = .error a) ∧
    ∀ l, x = .ok l → ∃ l', x' = .ok l' ∧ l'.map (·.pos) = l.map (·.pos) ∧ ∀ c ∈ l, c.pos ≠ []

theorem sameFind_union (h : Near T names t t') {f : Finder} {alts : List XAlt} (hc : f.ctxTypes = []) (hx : f.xpath = .union alts)
    (ha : OffRoot T f.nsmap alts)
    (hi : ∀ l : List Ctx, (∀ c ∈ l, c ∈ t.descs) → f.interrogate t' l = f.interrogate t l ∧ ∀ c ∈ f.interrogate t l, c ∈ l) :
    SameFind (f.find t) (f.find t') := by
  obtain ⟨h1, h2⟩ := h.xpath ha
  obtain ⟨h3, h4⟩ := hi _ h2
  obtain ⟨e, e', ks, rfl, rfl, ht, hs⟩ := h
  have e1 : f.find (.elem e ks) = .ok (f.interrogate (.elem e ks) ((Node.elem e ks).xpath f.nsmap alts)) := by
    simp [Finder.find, Finder.contexts, hc, hx, XPath.eval, elems_elem]
  have e2 : f.find (.elem e' ks) = .ok (f.interrogate (.elem e' ks) ((Node.elem e' ks).xpath f.nsmap alts)) := by
    simp [Finder.find, Finder.contexts, hc, hx, XPath.eval, elems_elem]
  rw [e1, e2, h1, h3]
  constructor
  · intro a ha; cases ha
  · intro l hl
    refine ⟨l, hl, rfl, fun c hc => ?_⟩
    cases hl
    exact descs_pos_ne _ (h2 c (h4 c hc))

theorem sameFind_typed (h : Near T names t t') (m : List (String × String)) (ty ns : String) :
    SameFind ((disallowedType m ty ns).find t) ((disallowedType m ty ns).find t') := by
  have ht : getTypedNodes t' = getTypedNodes t := by simp only [getTypedNodes, h.descs]
  have e : (disallowedType m ty ns).find t' = (disallowedType m ty ns).find t := by
    simp [Finder.find, Finder.contexts, disallowedType, ht, XPath.eval, keepAll]
  rw [e]
  refine ⟨fun a ha => ha, fun l hl => ⟨l, hl, rfl, fun c hc => ?_⟩⟩
  simp only [Finder.find] at hl
  split at hl
  · cases hl
  · next cs hcs =>
    cases hl
    simp only [disallowedType, XPath.eval, keepAll, List.mem_flatMap, List.mem_singleton] at hc
    obtain ⟨d, hd, rfl⟩ := hc
    simp only [disallowedType, Finder.contexts, List.isEmpty_cons, Bool.false_eq_true, if_false] at hcs
    rw [(filterE_filter hcs).2, List.mem_filter] at hd
    exact typed_pos_ne t hd.1

theorem sameFind_parent (h : Near T names t t') (m : List (String × String)) (x ns : String) :
    SameFind ((disallowedParent m x ns).find t) ((disallowedParent m x ns).find t') :=
  sameFind_union h (alts := [rel "ttp" x]) rfl rfl (offRoot_rel rfl) (fun _ _ => ⟨rfl, fun _ hc => (List.mem_filter.1 hc).1⟩)

theorem ctxAt_near (h : Near T names t t') {p : Pos} (hp : p ≠ []) : t'.ctxAt p = t.ctxAt p := by
  have hd := h.descs
  obtain ⟨e, e', ks, rfl, rfl, ht, hs⟩ := h
  have h0 : ¬ ([] : Pos) = p := fun e => hp e.symm
  simp only [Node.ctxAt, elems_elem, rootCtx, List.find?_cons, h0, decide_false, hd]

theorem sameFind_date (h : Near T names t t') (w : World) :
    SameFind ((disallowedDateTime w).find t) ((disallowedDateTime w).find t') := by
  obtain ⟨h1, h2⟩ := h.xpath (m := Tables.stix101_nsmap) (alts := [relIn "campaign" "Activity" "stixCommon" "Date_Time"]) (offRoot_rel rfl)
  have hl : ∀ c ∈ t.xpath Tables.stix101_nsmap [relIn "campaign" "Activity" "stixCommon" "Date_Time"], c.pos.tail ≠ [] := by
    intro c hc
    obtain ⟨hm, hs⟩ := List.mem_filter.1 hc
    have h3 := walk_anc_pos [] [] [] t c hm
    simp only [List.any_cons, List.any_nil, Bool.or_false, XAlt.selects, relIn, XPred.holds, Bool.and_true, Bool.false_or,
      Bool.and_eq_true, decide_eq_true_eq] at hs
    have h4 := hs.2.2
    simp only [List.length_nil, Nat.add_zero] at h3
    rw [h3] at h4
    intro h5
    have := congrArg List.length h5
    simp only [List.length_tail, List.length_nil] at this
    omega
  have e1 : ∀ s : Node, (disallowedDateTime w).find s = match s.elems.take 1 with
      | [] => .ok []
      | _ => .ok (((s.xpath Tables.stix101_nsmap [relIn "campaign" "Activity" "stixCommon" "Date_Time"]).filter
        (fun c => !dateTimeOk w c)).filterMap (fun c => s.ctxAt c.pos.tail)) := by
    intro s
    cases s with
    | other _ _ => simp [Finder.find, Finder.contexts, disallowedDateTime, Node.elems, Node.walk]
    | elem e ks => simp [Finder.find, Finder.contexts, disallowedDateTime, elems_elem, XPath.eval]
  have e3 : ∀ l : List Ctx, (∀ c ∈ l, c.pos.tail ≠ []) → l.filterMap (fun c => t'.ctxAt c.pos.tail) = l.filterMap (fun c => t.ctxAt c.pos.tail) ∧
      ∀ d ∈ l.filterMap (fun c => t.ctxAt c.pos.tail), d.pos ≠ [] := by
    intro l hl
    constructor
    · clear e1
      induction l with
      | nil => rfl
      | cons c cs ih =>
        simp only [List.filterMap_cons]
        rw [ctxAt_near h (hl c (by simp)), ih (fun d hd => hl d (by simp [hd]))]
    · intro d hd
      obtain ⟨c, hc, hcd⟩ := List.mem_filterMap.1 hd
      have := List.find?_some hcd
      simp only [decide_eq_true_eq] at this
      rw [this]
      exact hl c hc
  obtain ⟨e4, e5⟩ := e3 ((t.xpath Tables.stix101_nsmap [relIn "campaign" "Activity" "stixCommon" "Date_Time"]).filter
    (fun c => !dateTimeOk w c)) (fun c hc => hl c (List.mem_filter.1 hc).1)
  rw [e1, e1, h1, e4]
  obtain ⟨e, e', ks, rfl, rfl, ht, hs⟩ := h
  simp only [elems_elem, List.take_succ_cons]
  exact ⟨fun a ha => (nomatch ha), fun l hl => ⟨l, hl, rfl, fun c hc => by cases hl; exact e5 c hc⟩⟩

theorem sameFind_all : ∀ fs : List Finder, (∀ f ∈ fs, SameFind (f.find t) (f.find t')) →
    SameFind (findAll fs t) (findAll fs t')
  | [], _ => ⟨fun a ha => (nomatch ha), fun l hl => ⟨l, hl, rfl, fun c hc => by cases hl; cases hc⟩⟩
  | f :: fs, hf => by
    obtain ⟨a1, a2⟩ := hf f (by simp)
    obtain ⟨b1, b2⟩ := sameFind_all fs (fun g hg => hf g (by simp [hg]))
    simp only [findAll]
    cases hx : f.find t with
    | error x =>
      rw [a1 x hx]
      exact ⟨fun a ha => ha, fun l hl => by cases hl⟩
    | ok l =>
      obtain ⟨l', hl', hp, hn⟩ := a2 l hx
      rw [hl']
      cases hy : findAll fs t with
      | error y =>
        rw [b1 y hy]
        exact ⟨fun a ha => ha, fun l hl => by cases hl⟩
      | ok m =>
        obtain ⟨m', hm', hp', hn'⟩ := b2 m hy
        rw [hm']
        refine ⟨fun a ha => (nomatch ha), fun x hx => ⟨_, rfl, ?_, ?_⟩⟩
        · cases hx; rw [List.map_append, List.map_append, hp, hp']
        · cases hx
          intro c hc
          rcases List.mem_append.1 hc with hc | hc
          · exact hn c hc
          · exact hn' c hc

theorem tracks_optionals (fs : List Finder) (hf : ∀ f ∈ fs, ∃ alts, f.ctxTypes = [] ∧ f.xpath = .union alts ∧ relPaths alts = true ∧
    f.interrogate = keepEmpty) : Tracks T names (removeOptionals fs) := by
  refine Tracks.fold fs (fun f h => ?_)
  intro t t' hn s hs
  obtain ⟨alts, h1, h2, h3, h4⟩ := hf f h
  have hfind : SameFind (f.find t) (f.find t') := sameFind_union hn h1 h2 (offRoot_rel h3) (fun _ _ => by
    rw [h4]; exact ⟨rfl, fun _ hc => (List.mem_filter.1 hc).1⟩)
  simp only at hs ⊢
  split at hs
  · cases hs
  · next l hl =>
    obtain ⟨l', hl', hp, _⟩ := hfind.2 l hl
    rw [hl']
    cases hs
    refine ⟨_, rfl, ?_⟩
    rw [hp]
    exact hn.removeAll _

/-! ## Updaters -/

theorem cybox_optionals : ∀ f ∈ cybox201Optionals, ∃ alts, f.ctxTypes = [] ∧ f.xpath = .union alts ∧ relPaths alts = true ∧
    f.interrogate = keepEmpty := by
  intro f hf
  simp only [cybox201Optionals, List.mem_cons, List.not_mem_nil, or_false] at hf
  rcases hf with rfl | rfl | rfl | rfl | rfl | rfl | rfl | rfl | rfl | rfl | rfl | rfl | rfl | rfl <;>
    exact ⟨_, rfl, rfl, by decide, rfl⟩

theorem cybox_translatable : ∀ f ∈ cybox201Translatable, OffRoot T f.nsmap f.xpath := by
  intro f hf
  simp only [cybox201Translatable, List.mem_cons, List.not_mem_nil, or_false] at hf
  rcases hf with rfl | rfl | rfl | rfl | rfl | rfl | rfl | rfl <;> exact offRoot_rel rfl

theorem tracks_cybox20 {u : Cls} (hn : tagSchemaLoc ∉ names) (hv : OffRoot T u.nsmap u.xpathVersioned) (o : Options) :
    Tracks T names (cybox20Update u o) := by
  intro t t' h s hs
  have h1 := near_schemalocs h hn u
  have h2 := near_off (g := setVersion201) h1 hv
  rw [← cybox20Versions_eq, ← cybox20Versions_eq] at h2
  have h3 := near_lists h2 u
  simp only [cybox20Update] at hs ⊢
  split at hs
  · next hb => rw [if_pos hb]; exact tracks_vocabs _ _ _ h3 s hs
  · next hb => rw [if_neg hb]; cases hs; exact ⟨_, rfl, h3⟩

theorem tracks_cybox201 {n : List (String × String)} {sel : List XAlt} (hn : tagSchemaLoc ∉ names) (hv : OffRoot T n sel)
    (hT : (cybox201Cls n sel).nsUpdated T = false) (o : Options) : Tracks T names (cybox201Update (cybox201Cls n sel) o) := by
  intro t t' h s hs
  have h0 := near_ns h (cybox201Cls n sel)
  rw [hT] at h0
  have h1 := near_schemalocs h0 hn (cybox201Cls n sel)
  have h2 : Near T names (cybox201UpdateVersions (cybox201Cls n sel) ((cybox201Cls n sel).updateSchemalocs ((cybox201Cls n sel).updateNamespaces [] t)))
      (cybox201UpdateVersions (cybox201Cls n sel) ((cybox201Cls n sel).updateSchemalocs ((cybox201Cls n sel).updateNamespaces [] t'))) := by
    rw [cybox201Versions_eq, cybox201Versions_eq]
    exact near_off h1 hv
  simp only [cybox201Update] at hs ⊢
  split at hs
  · cases hs
  · next d hd =>
    obtain ⟨d', hd', h3⟩ := tracks_translates _ (cybox_translatable (T := T)) _ _ h2 d hd
    have hd'' : translateFields (cybox201Cls n sel).translatable (cybox201UpdateVersions (cybox201Cls n sel)
      ((cybox201Cls n sel).updateSchemalocs ((cybox201Cls n sel).updateNamespaces [] t'))) = .ok d' := hd'
    rw [hd'']
    simp only
    split at hs
    · cases hs
    · next f hf =>
      have hvoc : ∃ f', (if o.updateVocabularies then updateVocabs (cybox201Cls n sel).vocabs d' else .ok d') = .ok f' ∧ Near T names f f' := by
        split at hf
        · next hb => rw [if_pos hb]; exact tracks_vocabs _ _ _ h3 f hf
        · next hb => rw [if_neg hb]; cases hf; exact ⟨_, rfl, h3⟩
      obtain ⟨f', hf', h4⟩ := hvoc
      simp only [hf']
      split at hs
      · next hb => rw [if_pos hb]; exact tracks_optionals _ cybox_optionals _ _ h4 s hs
      · next hb => rw [if_neg hb]; cases hs; exact ⟨_, rfl, h4⟩

/-- The attribute with the STIX version. -/
def stixNames : List QName := [attrVersion]

theorem package_selected {m : List (String × String)} (hm : XName.resolve m ⟨"stix", "STIX_Package"⟩ = packageTag) :
    ∀ c : Ctx, c.anc = [] → c.e.tag = packageTag → xpathStixVersioned.any (fun a => a.selects m c) = true := by
  intro c _ ht
  simp only [xpathStixVersioned, List.any_cons]
  have : (absX "stix" "STIX_Package").selects m c = true := by
    simp [XAlt.selects, absX, XPred.holds, hm, ht]
  rw [this, Bool.true_or]

theorem merge_stix {u : Cls} (hm : XName.resolve u.nsmap ⟨"stix", "STIX_Package"⟩ = packageTag) (hx : u.xpathVersioned = xpathStixVersioned)
    (h : Near packageTag stixNames t t') (i v : String) : stixUpdateVersions u i v t' = stixUpdateVersions u i v t := by
  rw [stixVersions_eq, stixVersions_eq, hx]
  refine Near.eq (T := packageTag) (near_set h (package_selected hm) (fun e e' hs => ⟨rfl, ?_⟩))
  unfold setStixVersion
  rw [hs.tag]
  have h1 := hs.set attrVersion (if e.tag.name = "Indicator" then i else v)
  rwa [show List.filter (fun q => decide (q ≠ attrVersion)) stixNames = [] by decide] at h1

/-- Near documents have the same result. -/
def Merges (T : QName) (names : List QName) (P : Node → Except Err Node) : Prop :=
  ∀ t t', Near T names t t' → ∀ s, P t = .ok s → P t' = .ok s

theorem schemaLoc_off : tagSchemaLoc ∉ stixNames := by decide

theorem merges_10 (o : Options) : Merges packageTag stixNames (stix10Update o) := by
  intro t t' h s hs
  simp only [stix10Update] at hs ⊢
  split at hs
  · cases hs
  · next d hd =>
    obtain ⟨d', hd', h1⟩ := tracks_cybox20 (u := stix10Cybox) schemaLoc_off (offRoot_tags (by decide +kernel)) o t t' h d hd
    simp only [hd']
    have h2 := near_ns h1 stix10Cls
    rw [show stix10Cls.nsUpdated packageTag = false by decide +kernel] at h2
    have h3 := near_schemalocs h2 schemaLoc_off stix10Cls
    rw [merge_stix (u := stix10Cls) (by decide +kernel) rfl h3]
    exact hs

theorem merges_101 (w : World) (o : Options) : Merges packageTag stixNames (stix101Update w o) := by
  intro t t' h s hs
  simp only [stix101Update] at hs ⊢
  split at hs
  · cases hs
  · next d hd =>
    obtain ⟨d', hd', h1⟩ := tracks_cybox201 (n := joinNsmap Tables.stix101_nsmap Tables.cybox201_nsmap) (sel := stix101Selectors)
      schemaLoc_off (offRoot_rel rfl) (T := packageTag) (by decide +kernel) o t t' h d hd
    have hd'' : cybox201Update stix101Cybox o t' = .ok d' := hd'
    simp only [hd'']
    have h2 := near_ns h1 (stix101Cls w)
    rw [show (stix101Cls w).nsUpdated packageTag = false from rfl] at h2
    have h3 := near_schemalocs h2 schemaLoc_off (stix101Cls w)
    rw [merge_stix (u := stix101Cls w) (show XName.resolve Tables.stix101_nsmap ⟨"stix", "STIX_Package"⟩ = packageTag by decide +kernel) rfl h3]
    exact hs

theorem merges_11 (w : World) (o : Options) : Merges packageTag stixNames (stix11Update w o) := by
  intro t t' h s hs
  simp only [stix11Update] at hs ⊢
  have h2 := near_schemalocs h schemaLoc_off stix11Cybox
  have h3 := near_schemalocs h2 schemaLoc_off (stix11Cls w)
  rw [merge_stix (u := stix11Cls w) (show XName.resolve Tables.stix11_nsmap ⟨"stix", "STIX_Package"⟩ = packageTag by decide +kernel) rfl h3]
  exact hs

theorem merges_111 (o : Options) : Merges packageTag stixNames (stix111Update o) := by
  intro t t' h s hs
  simp only [stix111Update] at hs ⊢
  have h3 := near_schemalocs h schemaLoc_off stix111Cls
  rw [merge_stix (u := stix111Cls) (by decide +kernel) rfl h3]
  exact hs

theorem merges_12 (o : Options) : Merges packageTag stixNames (stix12Update o) := by
  intro t t' h s hs
  simp only [stix12Update] at hs ⊢
  have h3 := near_schemalocs (near_ns h stix12Cls) schemaLoc_off stix12Cls
  rw [← hs]
  obtain ⟨e, e', ks, h4, h5, _, h6⟩ := h3
  rw [h4, h5]
  simp only [setRootVersion]
  rw [SameBut.eq (h6.set attrVersion "1.2.1")]

/-- The attributes with the CybOX version. -/
def cyboxNames : List QName := [attrMajor, attrMinor, attrUpdate]

theorem observables_selected {m : List (String × String)} (hm : XName.resolve m ⟨"cybox", "Observables"⟩ = observablesTag) :
    ∀ c : Ctx, c.anc = [] → c.e.tag = observablesTag → xpathObservables.any (fun a => a.selects m c) = true := by
  intro c _ ht
  simp [xpathObservables, XAlt.selects, absX, XPred.holds, hm, ht]

theorem merges_20 (o : Options) : Merges observablesTag cyboxNames (cybox20Update (cybox20Cls Tables.cybox20_nsmap xpathObservables) o) := by
  intro t t' h s hs
  simp only [cybox20Update] at hs ⊢
  rw [cybox20Versions_eq] at hs ⊢
  have h1 := near_schemalocs h (by decide) (cybox20Cls Tables.cybox20_nsmap xpathObservables)
  have h2 := near_set (names' := []) (g := setVersion201) h1 (m := Tables.cybox20_nsmap) (alts := xpathObservables)
    (observables_selected (by decide +kernel)) (fun e e' hs => ⟨rfl, by
      have h3 := ((hs.set attrMajor "2").set attrMinor "0").set attrUpdate "1"
      exact h3.mono (by decide)⟩)
  have h4 := h2.eq
  simp only [cybox20Cls] at h4 hs ⊢
  rw [h4]
  exact hs

theorem merges_201 (o : Options) : Merges observablesTag cyboxNames (cybox201Update (cybox201Cls Tables.cybox201_nsmap xpathObservables) o) := by
  intro t t' h s hs
  simp only [cybox201Update] at hs ⊢
  rw [cybox201Versions_eq] at hs ⊢
  have h0 := near_ns h (cybox201Cls Tables.cybox201_nsmap xpathObservables)
  rw [show (cybox201Cls Tables.cybox201_nsmap xpathObservables).nsUpdated observablesTag = false by decide +kernel] at h0
  have h1 := near_schemalocs h0 (by decide) (cybox201Cls Tables.cybox201_nsmap xpathObservables)
  have h2 := near_set (names' := []) (g := setVersion21) h1 (m := Tables.cybox201_nsmap) (alts := xpathObservables)
    (observables_selected (by decide +kernel)) (fun e e' hs => ⟨rfl, by
      have h3 := ((hs.set attrMajor "2").set attrMinor "1").del attrUpdate
      exact h3.mono (by decide)⟩)
  have h4 := h2.eq
  simp only [cybox201Cls] at h4 hs ⊢
  rw [h4]
  exact hs

/-! ## Checks -/

/-- Both pass, or both raise an error of the same sort. -/
def AgreeOn (x x' : Except Err Unit) : Prop :=
  (x = .ok () → x' = .ok ()) ∧ ∀ a, x = .error a → ∃ b, x' = .error b ∧ refusable b = refusable a

theorem AgreeOn.refl (x : Except Err Unit) : AgreeOn x x := ⟨id, fun a h => ⟨a, h, rfl⟩⟩

theorem AgreeOn.ite {b : Bool} {x x' : Except Err Unit} (h : b = true → AgreeOn x x') :
    AgreeOn (if b then x else .ok ()) (if b then x' else .ok ()) := by
  cases b with
  | false => exact AgreeOn.refl _
  | true => exact h rfl

/-- One check after another. -/
theorem AgreeOn.bind {x x' y y' : Except Err Unit} (hx : AgreeOn x x') (hy : AgreeOn y y') :
    AgreeOn (match (generalizing := false) x with | .error a => .error a | .ok () => y) (match (generalizing := false) x' with | .error a => .error a | .ok () => y') := by
  cases x with
  | error a =>
    obtain ⟨b, hb, hr⟩ := hx.2 a rfl
    subst hb
    exact ⟨fun h => (nomatch h), fun c hc => by cases hc; exact ⟨b, rfl, hr⟩⟩
  | ok _ =>
    have := hx.1 rfl
    subst this
    exact hy

theorem agree_dis {x x' : Except Err (List Ctx)} (h : SameFind x x') (b : Bool) (D : Option Dups) :
    AgreeOn (match (generalizing := false) x with | .error a => .error a | .ok dis => if (dis.isEmpty && b) then .ok () else .error (.update (some dis) D))
      (match (generalizing := false) x' with | .error a => .error a | .ok dis => if (dis.isEmpty && b) then .ok () else .error (.update (some dis) D)) := by
  cases x with
  | error a => rw [h.1 a rfl]; exact AgreeOn.refl _
  | ok l =>
    obtain ⟨l', hl', hp, _⟩ := h.2 l rfl
    subst hl'
    have hb : l'.isEmpty = l.isEmpty := by
      cases l <;> cases l' <;> simp_all
    simp only [hb]
    split
    · exact AgreeOn.refl _
    · exact ⟨fun h => (nomatch h), fun c hc => by cases hc; exact ⟨_, rfl, rfl⟩⟩

theorem equal_spelling {x x' v : String} {n : Ver} (h : VersionForm x n) (h' : VersionForm x' n) :
    (isVersionEqual x' v : Except Err Bool) = isVersionEqual x v ∧ (isVersionEqual v x' : Except Err Bool) = isVersionEqual v x := by
  simp only [isVersionEqual, (parseVer_iff x n).2 h, (parseVer_iff x' n).2 h', and_self]

/-- Documents near each other whose roots have the same version. -/
def NearOk (V : Elem → Elem → Prop) (T : QName) (names : List QName) (o : Options) (t t' : Node) : Prop :=
  ∃ e e' ks, t = .elem e ks ∧ t' = .elem e' ks ∧ e.tag = T ∧ SameBut names e e' ∧ (o.checkVersions = true → V e e')

theorem NearOk.near {V : Elem → Elem → Prop} {o : Options} (h : NearOk V T names o t t') : Near T names t t' := by
  obtain ⟨e, e', ks, h1, h2, h3, h4, _⟩ := h
  exact ⟨e, e', ks, h1, h2, h3, h4⟩

theorem agree_stix {u : Cls} {o : Options} (hm : XName.resolve u.nsmap ⟨"stix", "STIX_Package"⟩ = packageTag) (hx : u.xpathRoots = xpathStixRoots)
    (h : NearOk SameStix packageTag stixNames o t t') (ho : o.checkVersions = true) : AgreeOn (stixCheckVersion u t) (stixCheckVersion u t') := by
  obtain ⟨e, e', ks, rfl, rfl, ht, hs, hv⟩ := h
  obtain ⟨x, x', n, ⟨h1, h1'⟩, ⟨h2, h2'⟩, h3, h4⟩ := hv ho
  have hroot : ∀ f : Elem, f.tag = packageTag → ∃ l, u.rootNodes (.elem f ks) = rootCtx f ks :: l := by
    intro f hf
    simp only [Cls.rootNodes, Node.xpath, elems_elem, hx, List.filter_cons]
    have : (xpathStixRoots.any fun a => a.selects u.nsmap (rootCtx f ks)) = true := by
      simp [xpathStixRoots, XAlt.selects, absX, XPred.holds, hm, rootCtx, hf]
    rw [this]
    exact ⟨_, rfl⟩
  obtain ⟨l, hl⟩ := hroot e ht
  obtain ⟨l', hl'⟩ := hroot e' (hs.tag.trans ht)
  have h1a : stixGetVersion (rootCtx e ks).e = some x := h1
  have h2a : stixGetVersion (rootCtx e' ks).e = some x' := h2
  simp only [stixCheckVersion, hl, hl', h1a, h2a, h1', h2', if_false, (equal_spelling (v := u.version) h3 h4).1]
  cases (isVersionEqual x u.version : Except Err Bool) with
  | error a => exact AgreeOn.refl _
  | ok b =>
    cases b
    · exact ⟨fun h => (nomatch h), fun c hc => by cases hc; exact ⟨_, rfl, rfl⟩⟩
    · exact AgreeOn.refl _

theorem agree_cybox {u : Cls} {o : Options} (hm : XName.resolve u.nsmap ⟨"cybox", "Observables"⟩ = observablesTag) (hx : u.xpathRoots = xpathObservables)
    (h : NearOk SameCybox observablesTag cyboxNames o t t') (ho : o.checkVersions = true) : AgreeOn (cyboxCheckVersion u t) (cyboxCheckVersion u t') := by
  have hd := h.near.descs
  obtain ⟨e, e', ks, rfl, rfl, ht, hs, hv⟩ := h
  obtain ⟨x, x', n, h1, h2, h3, h4⟩ := hv ho
  have hroot : ∀ f : Elem, f.tag = observablesTag → u.rootNodes (.elem f ks) = rootCtx f ks ::
      (Node.elem f ks).descs.filter (fun c => xpathObservables.any fun a => a.selects u.nsmap c) := by
    intro f hf
    simp only [Cls.rootNodes, Node.xpath, elems_elem, hx, List.filter_cons]
    have : (xpathObservables.any fun a => a.selects u.nsmap (rootCtx f ks)) = true := by
      simp [xpathObservables, XAlt.selects, absX, XPred.holds, hm, rootCtx, hf]
    rw [this]
    rfl
  have h1a : cyboxGetVersion (rootCtx e ks).e = .ok x := getVersion_iff.2 h1
  have h2a : cyboxGetVersion (rootCtx e' ks).e = .ok x' := getVersion_iff.2 h2
  simp only [cyboxCheckVersion, hroot e ht, hroot e' (hs.tag.trans ht), cyboxCheckRoots, h1a, h2a, hd, (equal_spelling (v := u.version) h3 h4).2]
  cases (isVersionEqual u.version x : Except Err Bool) with
  | error a => exact AgreeOn.refl _
  | ok b =>
    cases b
    · exact ⟨fun h => (nomatch h), fun c hc => by cases hc; exact ⟨_, rfl, rfl⟩⟩
    · exact AgreeOn.refl _

theorem check_off (h : Near T names t t') {u : Cls} (ha : OffRoot T u.nsmap u.xpathRoots) : cyboxCheckVersion u t' = cyboxCheckVersion u t := by
  simp only [cyboxCheckVersion, Cls.rootNodes, (h.xpath ha).1]

theorem dups_near (h : Near T names t t') (m : List (String × String)) : getDuplicates m t' = getDuplicates m t := by
  simp only [getDuplicates, h.descs]

theorem find_cybox (h : Near T names t t') : SameFind (findAll cybox201Disallowed t) (findAll cybox201Disallowed t') := by
  refine sameFind_all _ (fun f hf => ?_)
  simp only [cybox201Disallowed, List.mem_cons, List.not_mem_nil, or_false] at hf
  rcases hf with rfl | rfl | rfl | rfl
  · exact sameFind_union h rfl rfl (offRoot_rel rfl) (fun _ _ => ⟨rfl, fun _ hc => hc⟩)
  · exact sameFind_union h rfl rfl (offRoot_rel rfl) (fun _ _ => ⟨rfl, fun _ hc => hc⟩)
  · exact sameFind_union h rfl rfl (offRoot_rel rfl) (fun _ _ => ⟨rfl, fun _ hc => hc⟩)
  · exact sameFind_union h rfl rfl (offRoot_rel rfl) (fun _ _ => ⟨rfl, fun _ hc => (List.mem_filter.1 hc).1⟩)

theorem find_10 (h : Near T names t t') : SameFind (stix10GetDisallowed t) (stix10GetDisallowed t') := by
  refine sameFind_all _ (fun f hf => ?_)
  simp only [stix10Cls, stix10Disallowed, List.mem_cons, List.not_mem_nil, or_false] at hf
  rcases hf with rfl | rfl | rfl | rfl
  · exact sameFind_typed h _ _ _
  · exact sameFind_typed h _ _ _
  · exact sameFind_parent h _ _ _
  · exact sameFind_parent h _ _ _

theorem find_101 (h : Near T names t t') (w : World) : SameFind (stix101GetDisallowed w t) (stix101GetDisallowed w t') := by
  have h1 : SameFind (findAll (stix101Disallowed w) t) (findAll (stix101Disallowed w) t') := by
    refine sameFind_all _ (fun f hf => ?_)
    simp only [stix101Disallowed, List.mem_cons, List.not_mem_nil, or_false] at hf
    rcases hf with rfl | rfl | rfl | rfl | rfl
    · exact sameFind_typed h _ _ _
    · exact sameFind_typed h _ _ _
    · exact sameFind_date h w
    · exact sameFind_parent h _ _ _
    · exact sameFind_parent h _ _ _
  have h2 : SameFind (findAll stix101Cybox.disallowed t) (findAll stix101Cybox.disallowed t') := find_cybox h
  simp only [stix101GetDisallowed]
  cases hx : findAll (stix101Disallowed w) t with
  | error x =>
    rw [h1.1 x hx]
    exact ⟨fun a ha => ha, fun l hl => by cases hl⟩
  | ok l =>
    obtain ⟨l', hl', hp, hn⟩ := h1.2 l hx
    rw [hl']
    cases hy : findAll stix101Cybox.disallowed t with
    | error y =>
      rw [h2.1 y hy]
      exact ⟨fun a ha => ha, fun l hl => by cases hl⟩
    | ok m =>
      obtain ⟨m', hm', hp', hn'⟩ := h2.2 m hy
      rw [hm']
      refine ⟨fun a ha => (nomatch ha), fun x hx => ⟨_, rfl, ?_, ?_⟩⟩
      · cases hx; rw [List.map_append, List.map_append, hp, hp']
      · cases hx
        intro c hc
        rcases List.mem_append.1 hc with hc | hc
        · exact hn c hc
        · exact hn' c hc

theorem agree_10 {o : Options} (h : Near packageTag names t t')
    (ha : o.checkVersions = true → AgreeOn (stixCheckVersion stix10Cls t) (stixCheckVersion stix10Cls t')) :
    AgreeOn (stix10Check o t) (stix10Check o t') := by
  have h2 := agree_dis (find_10 h) true none
  simp only [Bool.and_true] at h2
  refine AgreeOn.bind (AgreeOn.ite (fun ho => AgreeOn.bind (ha ho) ?_)) h2
  rw [check_off h (u := stix10Cybox) (offRoot_tags (by decide +kernel))]
  exact AgreeOn.refl _

theorem agree_101 {w : World} {o : Options} (h : Near packageTag names t t')
    (ha : o.checkVersions = true → AgreeOn (stixCheckVersion (stix101Cls w) t) (stixCheckVersion (stix101Cls w) t')) :
    AgreeOn (stix101Check w o t) (stix101Check w o t') := by
  have hd : stix101GetDuplicates t' = stix101GetDuplicates t := by simp only [stix101GetDuplicates, dups_near h]
  have h2 := agree_dis (find_101 h w) (stix101GetDuplicates t).isEmpty (some (stix101GetDuplicates t))
  simp only [stix101Check, hd]
  refine AgreeOn.bind (AgreeOn.ite (fun ho => AgreeOn.bind (ha ho) ?_)) h2
  rw [check_off h (u := stix101Cybox) (offRoot_rel rfl)]
  exact AgreeOn.refl _

theorem agree_201 {u : Cls} {o : Options} (hu : u = cybox201Cls Tables.cybox201_nsmap xpathObservables) (h : Near observablesTag names t t')
    (ha : o.checkVersions = true → AgreeOn (cyboxCheckVersion u t) (cyboxCheckVersion u t')) :
    AgreeOn (cybox201Check u o t) (cybox201Check u o t') := by
  subst hu
  have h2 := agree_dis (find_cybox h) (getDuplicates Tables.cybox201_nsmap t).isEmpty (some (getDuplicates Tables.cybox201_nsmap t))
  simp only [cybox201Check, dups_near h]
  exact AgreeOn.bind (AgreeOn.ite ha) h2

/-- Where a STIX updater finds the package. -/
theorem stix_resolve {w : World} {v : String} {u : Updater} (hv : assoc (stixUpdaters w) v = some u) :
    XName.resolve u.cls.nsmap ⟨"stix", "STIX_Package"⟩ = packageTag ∧ u.cls.xpathRoots = xpathStixRoots := by
  have hmem := assoc_mem hv
  simp only [stixUpdaters, List.mem_cons, List.not_mem_nil, or_false, Prod.mk.injEq] at hmem
  rcases hmem with ⟨_, rfl⟩ | ⟨_, rfl⟩ | ⟨_, rfl⟩ | ⟨_, rfl⟩ | ⟨_, rfl⟩
  · exact ⟨by decide +kernel, rfl⟩
  · exact ⟨show XName.resolve Tables.stix101_nsmap ⟨"stix", "STIX_Package"⟩ = packageTag by decide +kernel, rfl⟩
  · exact ⟨show XName.resolve Tables.stix11_nsmap ⟨"stix", "STIX_Package"⟩ = packageTag by decide +kernel, rfl⟩
  · exact ⟨by decide +kernel, rfl⟩
  · exact ⟨by decide +kernel, rfl⟩

theorem stix_agree {w : World} {o : Options} {v : String} {u : Updater} (hv : assoc (stixUpdaters w) v = some u) (h : Near packageTag names t t')
    (ha : o.checkVersions = true → AgreeOn (stixCheckVersion u.cls t) (stixCheckVersion u.cls t')) : AgreeOn (u.check o t) (u.check o t') := by
  have hmem := assoc_mem hv
  simp only [stixUpdaters, List.mem_cons, List.not_mem_nil, or_false, Prod.mk.injEq] at hmem
  rcases hmem with ⟨_, rfl⟩ | ⟨_, rfl⟩ | ⟨_, rfl⟩ | ⟨_, rfl⟩ | ⟨_, rfl⟩
  · exact agree_10 h ha
  · exact agree_101 h ha
  · exact AgreeOn.ite ha
  · exact AgreeOn.ite ha
  · exact AgreeOn.ite ha

theorem cybox_resolve {v : String} {u : Updater} (hv : assoc cyboxUpdaters v = some u) :
    XName.resolve u.cls.nsmap ⟨"cybox", "Observables"⟩ = observablesTag ∧ u.cls.xpathRoots = xpathObservables := by
  have hmem := assoc_mem hv
  simp only [cyboxUpdaters, List.mem_cons, List.not_mem_nil, or_false, Prod.mk.injEq] at hmem
  rcases hmem with ⟨_, rfl⟩ | ⟨_, rfl⟩
  · exact ⟨by decide +kernel, rfl⟩
  · exact ⟨by decide +kernel, rfl⟩

theorem cybox_agree {o : Options} {v : String} {u : Updater} (hv : assoc cyboxUpdaters v = some u) (h : Near observablesTag names t t')
    (ha : o.checkVersions = true → AgreeOn (cyboxCheckVersion u.cls t) (cyboxCheckVersion u.cls t')) : AgreeOn (u.check o t) (u.check o t') := by
  have hmem := assoc_mem hv
  simp only [cyboxUpdaters, List.mem_cons, List.not_mem_nil, or_false, Prod.mk.injEq] at hmem
  rcases hmem with ⟨_, rfl⟩ | ⟨_, rfl⟩
  · exact AgreeOn.ite ha
  · exact agree_201 rfl h ha

/-! ## Forced updates -/

theorem near_remap (gen : Nat → String → String) : ∀ (cs : List Ctx) (k : Nat) {t t' : Node}, Near T names t t' →
    Near T names (remapGroup gen cs k t).1 (remapGroup gen cs k t').1 ∧ (remapGroup gen cs k t').2 = (remapGroup gen cs k t).2
  | [], _, _, _, h => ⟨h, rfl⟩
  | c :: cs, k, _, _, h => by
    obtain ⟨h1, h2⟩ := near_remap gen cs (k + 1) (h.modifyAt c.pos (g := fun e => e.set attrId (gen k ((c.e.get? attrId).getD "")))
      (fun _ e e' hs => ⟨rfl, hs.put _ _⟩))
    simp only [remapGroup, h2]
    exact ⟨h1, trivial⟩

theorem near_clean (gen : Nat → String → String) : ∀ (gs : Dups) (k : Nat) {t t' : Node}, Near T names t t' →
    Near T names (cleanDuplicates gen gs k t).1 (cleanDuplicates gen gs k t').1 ∧
      (cleanDuplicates gen gs k t').2 = (cleanDuplicates gen gs k t).2
  | [], _, _, _, h => ⟨h, rfl⟩
  | g :: gs, k, t, _, h => by
    obtain ⟨h1, h2⟩ := near_remap gen g.2 k h
    obtain ⟨h3, h4⟩ := near_clean gen gs (remapGroup gen g.2 k t).2.1 h1
    simp only [cleanDuplicates, h2, h4]
    exact ⟨h3, trivial⟩

theorem copies_near (h : Near T names t t') : ∀ (ps done : List Pos), (∀ p ∈ ps, p ≠ []) → removedCopies t' done ps = removedCopies t done ps
  | [], _, _ => rfl
  | p :: ps, done, hp => by
    simp only [removedCopies, ctxAt_near h (hp p (by simp)), copies_near h ps (p :: done) (fun q hq => hp q (by simp [hq]))]

/-- The searches of the updater agree. -/
def SameDis (x x' : Except Err (Option (List Ctx))) : Prop :=
  ∀ d, x = .ok d → ∃ d', x' = .ok d' ∧ d'.map (·.map (·.pos)) = d.map (·.map (·.pos)) ∧ ∀ l, d = some l → ∀ c ∈ l, c.pos ≠ []

theorem SameFind.dis {x x' : Except Err (List Ctx)} (h : SameFind x x') : SameDis (x.map some) (x'.map some) := by
  intro d hd
  obtain ⟨l, hl, rfl⟩ := map_ok hd
  obtain ⟨l', hl', hp, hn⟩ := h.2 l hl
  subst hl'
  exact ⟨_, rfl, by simp [hp], fun m hm => by cases hm; exact hn⟩

theorem SameDis.const (x : Except Err (Option (List Ctx))) (h : x = .ok none ∨ ∃ a, x = .error a) : SameDis x x := by
  intro d hd
  rcases h with h | ⟨a, h⟩
  · rw [h] at hd; cases hd
    exact ⟨none, h, rfl, fun l hl => (nomatch hl)⟩
  · rw [h] at hd; cases hd

/-- The removal at the end of `clean`. -/
def dropThem (d : Option (List Ctx)) (s : Node) : Node × List Node :=
  match d with
  | none => (s, [])
  | some cs => if cs.isEmpty then (s, []) else cleanDisallowed s (cs.map (·.pos))

theorem clean_near {u : Updater} {o : Options} {k : Nat} (h : Near T names t t')
    (hd : SameDis (u.disallowed t) (u.disallowed t')) (hu : u.duplicates t' = u.duplicates t) :
    ∀ q, clean u o k t = .ok q → ∃ q', clean u o k t' = .ok q' ∧ Near T names q.1.doc q'.1.doc ∧
      q'.1.removed = q.1.removed ∧ q'.1.remapped = q.1.remapped ∧ q'.2 = q.2 := by
  intro q hq
  simp only [clean, hu] at hq ⊢
  split at hq
  · cases hq
  · next d hx =>
    obtain ⟨d', hx', hp, hn⟩ := hd d hx
    rw [hx']
    cases hq
    refine ⟨_, rfl, ?_⟩
    have fin : ∀ s s' : Node, Near T names s s' → Near T names (dropThem d s).1 (dropThem d' s').1 ∧ (dropThem d' s').2 = (dropThem d s).2 := by
      intro s s' hs
      cases d with
      | none =>
        cases d' with
        | none => exact ⟨hs, rfl⟩
        | some l' => cases hp
      | some l =>
        cases d' with
        | none => cases hp
        | some l' =>
          simp only [Option.map_some, Option.some.injEq] at hp
          have hb : l'.isEmpty = l.isEmpty := by cases l <;> cases l' <;> simp_all
          simp only [dropThem, hb, hp]
          split
          · exact ⟨hs, rfl⟩
          · refine ⟨hs.removeAll _, copies_near hs _ _ (fun p hp => ?_)⟩
            obtain ⟨c, hc, rfl⟩ := List.mem_map.1 hp
            exact hn l rfl c hc
    cases u.duplicates t with
    | none =>
      obtain ⟨f1, f2⟩ := fin t t' h
      exact ⟨f1, f2, rfl, rfl⟩
    | some ds =>
      obtain ⟨g1, g2⟩ := near_clean o.newId ds k h
      obtain ⟨f1, f2⟩ := fin _ _ g1
      exact ⟨f1, f2, by simp only [g2], by simp only [g2]⟩

theorem force_near {u : Updater} {o : Options} {k : Nat} {r : Result × Nat} (h : Near T names t t') (hm : Merges T names (u.update o))
    (hd : SameDis (u.disallowed t) (u.disallowed t')) (hu : u.duplicates t' = u.duplicates t)
    (hr : forceUpdate u o k t = .ok r) : forceUpdate u o k t' = .ok r := by
  simp only [forceUpdate] at hr ⊢
  split at hr
  · cases hr
  · next q kq hq =>
    obtain ⟨⟨q', kq'⟩, hq', n1, n2, n3, n4⟩ := clean_near h hd hu _ hq
    rw [hq']
    simp only at n1 n2 n3 n4 ⊢
    split at hr
    · cases hr
    · next d hd2 =>
      rw [hm _ _ n1 d hd2, n2, n3, n4]
      exact hr

theorem step_near {w : World} {u : Updater} {o : Options} {force : Bool} {k : Nat} {r : Result × Nat} (hg : Registered w u)
    (h : Near T names t t') (hm : Merges T names (u.update o)) (hc : AgreeOn (u.check o t) (u.check o t'))
    (hd : SameDis (u.disallowed t) (u.disallowed t')) (hu : u.duplicates t' = u.duplicates t)
    (hr : stepUpdate u o force k t = .ok r) : stepUpdate u o force k t' = .ok r := by
  simp only [stepUpdate, tryUpdate] at hr ⊢
  cases hx : u.check o t with
  | ok _ =>
    rw [hc.1 hx]
    rw [hx] at hr
    simp only at hr ⊢
    cases hy : u.update o t with
    | ok d => rw [hm _ _ h d hy]; rw [hy] at hr; exact hr
    | error x =>
      rw [hy] at hr
      simp only [noRefuse_update hg o t x hy, Bool.false_and, Bool.false_eq_true, if_false] at hr
      cases hr
  | error x =>
    obtain ⟨b, hb, hrf⟩ := hc.2 x hx
    rw [hx] at hr
    rw [hb]
    simp only [hrf] at hr ⊢
    split at hr
    · next hif => rw [if_pos hif]; exact force_near h hm hd hu hr
    · cases hr

theorem stix_finds {w : World} {v : String} {u : Updater} (hv : assoc (stixUpdaters w) v = some u) (h : Near packageTag names t t') :
    SameDis (u.disallowed t) (u.disallowed t') ∧ u.duplicates t' = u.duplicates t := by
  have hmem := assoc_mem hv
  simp only [stixUpdaters, List.mem_cons, List.not_mem_nil, or_false, Prod.mk.injEq] at hmem
  rcases hmem with ⟨_, rfl⟩ | ⟨_, rfl⟩ | ⟨_, rfl⟩ | ⟨_, rfl⟩ | ⟨_, rfl⟩
  · exact ⟨(find_10 h).dis, rfl⟩
  · exact ⟨(find_101 h w).dis, by simp only [stix101, stix101GetDuplicates, dups_near h]⟩
  · exact ⟨SameDis.const _ (Or.inl rfl), rfl⟩
  · exact ⟨SameDis.const _ (Or.inl rfl), rfl⟩
  · exact ⟨SameDis.const _ (Or.inr ⟨_, rfl⟩), by simp only [stix12, dups_near h]⟩

theorem cybox_finds {v : String} {u : Updater} (hv : assoc cyboxUpdaters v = some u) (h : Near observablesTag names t t') :
    SameDis (u.disallowed t) (u.disallowed t') ∧ u.duplicates t' = u.duplicates t := by
  have hmem := assoc_mem hv
  simp only [cyboxUpdaters, List.mem_cons, List.not_mem_nil, or_false, Prod.mk.injEq] at hmem
  rcases hmem with ⟨_, rfl⟩ | ⟨_, rfl⟩
  · exact ⟨SameDis.const _ (Or.inl rfl), rfl⟩
  · exact ⟨(find_cybox h).dis, by simp only [cybox201, dups_near h]⟩

theorem stix_steps {w : World} {o : Options} {force : Bool} {k : Nat} {r : Result × Nat} {v : String} {u : Updater}
    (hv : assoc (stixUpdaters w) v = some u) (h : NearOk SameStix packageTag stixNames o t t')
    (hr : stepUpdate u o force k t = .ok r) : stepUpdate u o force k t' = .ok r := by
  have hm : Merges packageTag stixNames (u.update o) := by
    have hmem := assoc_mem hv
    simp only [stixUpdaters, List.mem_cons, List.not_mem_nil, or_false, Prod.mk.injEq] at hmem
    rcases hmem with ⟨_, rfl⟩ | ⟨_, rfl⟩ | ⟨_, rfl⟩ | ⟨_, rfl⟩ | ⟨_, rfl⟩
    · exact merges_10 o
    · exact merges_101 w o
    · exact merges_11 w o
    · exact merges_111 o
    · exact merges_12 o
  obtain ⟨r1, r2⟩ := stix_resolve hv
  obtain ⟨f1, f2⟩ := stix_finds hv h.near
  exact step_near (registered_stix hv) h.near hm (stix_agree hv h.near (fun ho => agree_stix r1 r2 h ho)) f1 f2 hr

theorem registered_cybox72 {v : String} {u : Updater} (hv : assoc cyboxUpdaters v = some u) : Registered Samples.w0 u := by
  have hmem := assoc_mem hv
  simp only [cyboxUpdaters, List.mem_cons, List.not_mem_nil, or_false, Prod.mk.injEq] at hmem
  rcases hmem with ⟨_, rfl⟩ | ⟨_, rfl⟩
  · exact .cybox20
  · exact .cybox201

theorem cybox_steps {o : Options} {force : Bool} {k : Nat} {r : Result × Nat} {v : String} {u : Updater}
    (hv : assoc cyboxUpdaters v = some u) (h : NearOk SameCybox observablesTag cyboxNames o t t')
    (hr : stepUpdate u o force k t = .ok r) : stepUpdate u o force k t' = .ok r := by
  have hm : Merges observablesTag cyboxNames (u.update o) := by
    have hmem := assoc_mem hv
    simp only [cyboxUpdaters, List.mem_cons, List.not_mem_nil, or_false, Prod.mk.injEq] at hmem
    rcases hmem with ⟨_, rfl⟩ | ⟨_, rfl⟩
    · exact merges_20 o
    · exact merges_201 o
  obtain ⟨r1, r2⟩ := cybox_resolve hv
  obtain ⟨f1, f2⟩ := cybox_finds hv h.near
  exact step_near (registered_cybox72 hv) h.near hm (cybox_agree hv h.near (fun ho => agree_cybox r1 r2 h ho)) f1 f2 hr

theorem chain_near {reg : List (String × Updater)} {o : Options} {force : Bool} {k : Nat} {r : Result × Nat} {vs : List String} (hn : vs ≠ [])
    (hstep : ∀ v u r, assoc reg v = some u → stepUpdate u o force k t = .ok r → stepUpdate u o force k t' = .ok r)
    (hr : chainLoop reg o force vs ⟨t, [], []⟩ k = .ok r) : chainLoop reg o force vs ⟨t', [], []⟩ k = .ok r := by
  cases vs with
  | nil => exact absurd rfl hn
  | cons v vs =>
    simp only [chainLoop] at hr ⊢
    split at hr
    · cases hr
    · next u hu =>
      split at hr
      · cases hr
      · next r' k' hr' =>
        rw [hstep v u _ hu hr']
        exact hr

theorem stix_between_ne : ∀ s ∈ stixReleases, ∀ g ∈ stixReleases, stixReleases.idxOf s < stixReleases.idxOf g →
    between stixReleases s g ≠ [] := by decide

theorem cybox_between_ne : ∀ s ∈ cyboxReleases, ∀ g ∈ cyboxReleases, cyboxReleases.idxOf s < cyboxReleases.idxOf g →
    between cyboxReleases s g ≠ [] := by decide

theorem SameStix.symm {e e' : Elem} (h : SameStix e e') : SameStix e' e := by
  obtain ⟨x, x', n, h1, h2, h3, h4⟩ := h
  exact ⟨x', x, n, h2, h1, h4, h3⟩

theorem SameCybox.symm {e e' : Elem} (h : SameCybox e e') : SameCybox e' e := by
  obtain ⟨x, x', n, h1, h2, h3, h4⟩ := h
  exact ⟨x', x, n, h2, h1, h4, h3⟩

theorem stix_oneway {w : World} {e e' : Elem} {ks : List Node} {s : String} {to_ : Option String} {o : Options} {force : Bool} {k : Nat}
    {r : Result × Nat} (he : e.tag = packageTag) (hs : s ≠ "") (hsame : SameBut stixNames e e') (hv : o.checkVersions = true → SameStix e e')
    (h : update w (.elem e ks) (some s) to_ o force k = .ok r) : update w (.elem e' ks) (some s) to_ o force k = .ok r := by
  have hn : e.tag.name = "STIX_Package" := by rw [he]; rfl
  have hn' : e'.tag.name = "STIX_Package" := by rw [hsame.tag, he]; rfl
  rw [(C01_dispatch w e ks _ to_ o force k).1 hn] at h
  rw [(C01_dispatch w e' ks _ to_ o force k).1 hn']
  obtain ⟨g, hg⟩ := inForce_some to_ "1.2.1"
  obtain ⟨s', hs', hold⟩ := stix_ok_range hg h
  have hs2 : inForce (some s) (stixRootVersion (.elem e' ks)) = some s' := by
    rw [inForce_release hs] at hs' ⊢; exact hs'
  have hm := older_mem hold
  rw [stixUpdate_accepted w _ o force k hs' hg hold] at h
  rw [stixUpdate_accepted w _ o force k hs2 hg hold]
  exact chain_near (stix_between_ne s' hm.1 g hm.2 ((older_iff stix_nodup hm.1 hm.2).1 hold))
    (fun v u r hvu hr => stix_steps hvu ⟨e, e', ks, rfl, rfl, he, hsame, hv⟩ hr) h

theorem cybox_oneway {w : World} {e e' : Elem} {ks : List Node} {s : String} {to_ : Option String} {o : Options} {force : Bool} {k : Nat}
    {r : Result × Nat} (he : e.tag = observablesTag) (hs : s ≠ "") (hsame : SameBut cyboxNames e e') (hv : o.checkVersions = true → SameCybox e e')
    (h : update w (.elem e ks) (some s) to_ o force k = .ok r) : update w (.elem e' ks) (some s) to_ o force k = .ok r := by
  have hn : e.tag.name = "Observables" := by rw [he]; rfl
  have hn' : e'.tag.name = "Observables" := by rw [hsame.tag, he]; rfl
  rw [(C01_dispatch w e ks _ to_ o force k).2.1 hn] at h
  rw [(C01_dispatch w e' ks _ to_ o force k).2.1 hn']
  obtain ⟨g, hg⟩ := inForce_some to_ "2.1"
  obtain ⟨s', hs', hold⟩ := cybox_ok_range hg h
  have hs2 : cyboxSource (.elem e' ks) (some s) = .ok (some s') := by
    simp only [cyboxSource, inForce_release hs] at hs' ⊢; exact hs'
  have hm := older_mem hold
  rw [cyboxUpdate_accepted _ o force k hs' hg hold] at h
  rw [cyboxUpdate_accepted _ o force k hs2 hg hold]
  exact chain_near (cybox_between_ne s' hm.1 g hm.2 ((older_iff cybox_nodup hm.1 hm.2).1 hold))
    (fun v u r hvu hr => cybox_steps hvu ⟨e, e', ks, rfl, rfl, he, hsame, hv⟩ hr) h

/-! ## C72 -/

/-- C72 (part): when the source version is given by the caller, the spelling of the version in the document does not matter.
Take a package and change nothing but the value of its `version` attribute, to another spelling of the same version (or to
anything at all when versions are not checked).  Then an update of one, forced or not, succeeds exactly when the same update of
the other does, and the results (document, removed elements, remapped ids and the number of new ids) are equal. -/
theorem C72_stix_partial (w : World) (e e' : Elem) (ks : List Node) (s : String) (to_ : Option String) (o : Options) (force : Bool) (k : Nat)
    (r : Result × Nat) (he : e.tag = ⟨some "http://stix.mitre.org/stix-1", "STIX_Package"⟩) (hs : s ≠ "")
    (hsame : SameBut [⟨none, "version"⟩] e e') (hv : o.checkVersions = true → SameStix e e') :
    update w (.elem e ks) (some s) to_ o force k = .ok r ↔ update w (.elem e' ks) (some s) to_ o force k = .ok r :=
  ⟨stix_oneway he hs hsame hv, stix_oneway (hsame.tag.trans he) hs hsame.symm (fun ho => (hv ho).symm)⟩

/-- C72 (part) for CybOX documents, whose version is in three attributes. -/
theorem C72_cybox_partial (w : World) (e e' : Elem) (ks : List Node) (s : String) (to_ : Option String) (o : Options) (force : Bool) (k : Nat)
    (r : Result × Nat) (he : e.tag = ⟨some "http://cybox.mitre.org/cybox-2", "Observables"⟩) (hs : s ≠ "")
    (hsame : SameBut [⟨none, "cybox_major_version"⟩, ⟨none, "cybox_minor_version"⟩, ⟨none, "cybox_update_version"⟩] e e')
    (hv : o.checkVersions = true → SameCybox e e') :
    update w (.elem e ks) (some s) to_ o force k = .ok r ↔ update w (.elem e' ks) (some s) to_ o force k = .ok r :=
  ⟨cybox_oneway he hs hsame hv, cybox_oneway (hsame.tag.trans he) hs hsame.symm (fun ho => (hv ho).symm)⟩

open Samples

/-! ## Examples and failures -/

/-- A root with the given tag and attributes. -/
def spelled (ns name : String) (attrs : Attrs) : Elem := ⟨⟨some ns, name⟩, [(some "stix", nsStix), (some "cybox", nsCyboxCore)], attrs, none, none⟩

/-- A package said to have version `v`; below it stands an indicator with a version of its own. -/
def pkgE (v : String) : Elem := spelled nsStix "STIX_Package" [at_ "id" "a:1", at_ "version" v]
def pkgKids : List Node := [el nsStix "Indicators" [] [el nsStix "Indicator" [at_ "version" "2.0"] []]]

/-- Observables said to have version `a.b.c`. -/
def obsE (a b c : String) : Elem := spelled nsCyboxCore "Observables"
  [at_ "cybox_major_version" a, at_ "cybox_minor_version" b, at_ "cybox_update_version" c]
def obsKids : List Node := [el nsCyboxCore "Observable" [at_ "id" "a:2"] [], el nsCyboxCore "Observable" [at_ "id" "a:2"] []]

theorem pkg_same (v v' : String) : SameBut [⟨none, "version"⟩] (pkgE v) (pkgE v') := by
  refine ⟨rfl, rfl, rfl, rfl, rfl, by show [(QName.mk none "id"), ⟨none, "version"⟩].Nodup; decide, fun q hq => ?_⟩
  have : ¬ (⟨none, "version"⟩ : QName) = q := fun h => hq (by simp [h])
  simp [Elem.get?, pkgE, spelled, at_, QName.plain, Attrs.get?, this]

theorem obs_same (a b c a' b' c' : String) : SameBut [⟨none, "cybox_major_version"⟩, ⟨none, "cybox_minor_version"⟩, ⟨none, "cybox_update_version"⟩]
    (obsE a b c) (obsE a' b' c') := by
  refine ⟨rfl, rfl, rfl, rfl, rfl, by
    show [(QName.mk none "cybox_major_version"), ⟨none, "cybox_minor_version"⟩, ⟨none, "cybox_update_version"⟩].Nodup; decide, fun q hq => ?_⟩
  simp only [List.mem_cons, List.not_mem_nil, or_false, not_or] at hq
  have h1 : ¬ (⟨none, "cybox_major_version"⟩ : QName) = q := fun h => hq.1 h.symm
  have h2 : ¬ (⟨none, "cybox_minor_version"⟩ : QName) = q := fun h => hq.2.1 h.symm
  have h3 : ¬ (⟨none, "cybox_update_version"⟩ : QName) = q := fun h => hq.2.2 h.symm
  simp [Elem.get?, obsE, spelled, at_, QName.plain, Attrs.get?, h1, h2, h3]

/-- The same version in two spellings. -/
theorem pkg_spellings : SameStix (pkgE "1.0") (pkgE "1.00.0") :=
  ⟨"1.0", "1.00.0", ⟨1, 0, 0, none⟩, ⟨by decide, by decide⟩, ⟨by decide, by decide⟩, (parseVer_iff _ _).1 (by decide), (parseVer_iff _ _).1 (by decide)⟩

theorem obs_spellings : SameCybox (obsE "2" "0" "1") (obsE "02" "00" "1") :=
  ⟨"2.0.1", "02.00.1", ⟨2, 0, 1, none⟩, getVersion_iff.1 (by decide), getVersion_iff.1 (by decide),
    (parseVer_iff _ _).1 (by decide), (parseVer_iff _ _).1 (by decide)⟩

/-- The first package is updated. -/
example : ∃ r, update w0 (.elem (pkgE "1.0") pkgKids) (some "1.0") (some "1.0.1") o0 false 0 = .ok r ∧
    r.1.doc.root?.bind (fun e => e.get? ⟨none, "version"⟩) = some "1.0.1" := ok_of_eval (by decide +kernel)
/-- So the other one is, with the same result. -/
example : ∀ r, update w0 (.elem (pkgE "1.0") pkgKids) (some "1.0") (some "1.0.1") o0 false 0 = .ok r ↔
    update w0 (.elem (pkgE "1.00.0") pkgKids) (some "1.0") (some "1.0.1") o0 false 0 = .ok r :=
  fun r => C72_stix_partial w0 _ _ _ _ _ _ _ _ r rfl (by decide) (pkg_same _ _) (fun _ => pkg_spellings)

/-- Unchecked, the version may be anything. -/
example : ∀ r, update w0 (.elem (pkgE "1.0") pkgKids) (some "1.0") (some "1.0.1") { o0 with checkVersions := false } false 0 = .ok r ↔
    update w0 (.elem (pkgE "one") pkgKids) (some "1.0") (some "1.0.1") { o0 with checkVersions := false } false 0 = .ok r :=
  fun r => C72_stix_partial w0 _ _ _ _ _ _ _ _ r rfl (by decide) (pkg_same _ _) (fun h => (nomatch h))

/-- A forced update with remapped ids. -/
example : ∃ r, update w0 (.elem (obsE "2" "0" "1") obsKids) (some "2.0.1") none o0 true 0 = .ok r ∧ r.1.remapped.length = 1 :=
  ok_of_eval (by decide +kernel)
example : ∀ r, update w0 (.elem (obsE "2" "0" "1") obsKids) (some "2.0.1") none o0 true 0 = .ok r ↔
    update w0 (.elem (obsE "02" "00" "1") obsKids) (some "2.0.1") none o0 true 0 = .ok r :=
  fun r => C72_cybox_partial w0 _ _ _ _ _ _ _ _ r rfl (by decide) (obs_same _ _ _ _ _ _) (fun _ => obs_spellings)

/-- C72 fails when the source version is read from the document: only the release's own spelling is known there. -/
theorem C72_default_fails : SameStix (pkgE "1.0") (pkgE "1.00.0") ∧
    (update w0 (.elem (pkgE "1.0") pkgKids) none (some "1.0.1") o0 false 0).isOk = true ∧
    (update w0 (.elem (pkgE "1.00.0") pkgKids) (some "1.0") (some "1.0.1") o0 false 0).isOk = true ∧
    (update w0 (.elem (pkgE "1.00.0") pkgKids) none (some "1.0.1") o0 true 0).isOk = false ∧
    SameCybox (obsE "2" "0" "1") (obsE "02" "00" "1") ∧
    (update w0 (.elem (obsE "2" "0" "1") []) none none o0 false 0).isOk = true ∧
    (update w0 (.elem (obsE "02" "00" "1") []) (some "2.0.1") none o0 false 0).isOk = true ∧
    (update w0 (.elem (obsE "02" "00" "1") []) none none o0 true 0).isOk = false :=
  ⟨pkg_spellings, by decide +kernel, by decide +kernel, by decide +kernel, obs_spellings, by decide +kernel, by decide +kernel, by decide +kernel⟩

/-- C72 fails for the versions the caller gives: another spelling of a release is refused, as source and as target. -/
theorem C72_argument_fails : (∃ n, VersionForm "1.0" n ∧ VersionForm "1.0.0" n) ∧ (∃ n, VersionForm "1.1" n ∧ VersionForm "1.1.0" n) ∧
    (update w0 (.elem (pkgE "1.0.1") pkgKids) none (some "1.1") o0 false 0).isOk = true ∧
    (update w0 (.elem (pkgE "1.0.1") pkgKids) none (some "1.1.0") o0 true 0).isOk = false ∧
    (update w0 (.elem (pkgE "1.0") pkgKids) (some "1.0") (some "1.0.1") o0 false 0).isOk = true ∧
    (update w0 (.elem (pkgE "1.0") pkgKids) (some "1.0.0") (some "1.0.1") o0 true 0).isOk = false :=
  ⟨⟨⟨1, 0, 0, none⟩, (parseVer_iff _ _).1 (by decide), (parseVer_iff _ _).1 (by decide)⟩,
    ⟨⟨1, 1, 0, none⟩, (parseVer_iff _ _).1 (by decide), (parseVer_iff _ _).1 (by decide)⟩,
    by decide +kernel, by decide +kernel, by decide +kernel, by decide +kernel⟩

end Ramrod
