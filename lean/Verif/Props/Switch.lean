import Verif.Props.Optional
import Verif.Props.Lost
import Verif.Props.Namespaces
import Verif.Props.Heap
/-!
# C68: switching the removal of optional elements on or off
-/

namespace Ramrod

open Samples

/-! ## Statement -/

mutual
/-- `t'` is `t` without some elements below its root, which go with their content and what stands after them; a kept
element may change as `E` allows. -/
inductive Less (E : Elem → Elem → Prop) : Node → Node → Prop
  | other (c : String) (t : Option String) : Less E (.other c t) (.other c t)
  | elem {e e' : Elem} {ks ks' : List Node} : E e e' → Lesss E ks ks' → Less E (.elem e ks) (.elem e' ks')
/-- `Less` on children: kept in order, or dropped. -/
inductive Lesss (E : Elem → Elem → Prop) : List Node → List Node → Prop
  | nil : Lesss E [] []
  | keep {k k' : Node} {ks ks' : List Node} : Less E k k' → Lesss E ks ks' → Lesss E (k :: ks) (k' :: ks')
  | drop (e : Elem) (es : List Node) {ks ks' : List Node} : Lesss E ks ks' → Lesss E (.elem e es :: ks) ks'
end

/-- The same element; or, in a namespace of STIX 1.2.1, the same but for a text only the second has. -/
def SameOrText (e e' : Elem) : Prop :=
  e' = e ∨ (e.text = none ∧ e' = { e with text := e'.text } ∧ ∃ p ∈ oasis, e.tag.ns = some p.2)

/-! ## Helpers: the relation -/

mutual
theorem Less.refl {E : Elem → Elem → Prop} (hE : ∀ e, E e e) : ∀ t : Node, Less E t t
  | .other c t => .other c t
  | .elem e ks => .elem (hE e) (Lesss.refl hE ks)
theorem Lesss.refl {E : Elem → Elem → Prop} (hE : ∀ e, E e e) : ∀ ks : List Node, Lesss E ks ks
  | [] => .nil
  | k :: ks => .keep (Less.refl hE k) (Lesss.refl hE ks)
end

mutual
theorem Less.mono {E E' : Elem → Elem → Prop} (hE : ∀ e e', E e e' → E' e e') : ∀ {t t' : Node}, Less E t t' → Less E' t t'
  | _, _, .other c t => .other c t
  | _, _, .elem h hk => .elem (hE _ _ h) (Lesss.mono hE hk)
theorem Lesss.mono {E E' : Elem → Elem → Prop} (hE : ∀ e e', E e e' → E' e e') : ∀ {t t' : List Node}, Lesss E t t' →
    Lesss E' t t'
  | _, _, .nil => .nil
  | _, _, .keep h hk => .keep (Less.mono hE h) (Lesss.mono hE hk)
  | _, _, .drop e es hk => .drop e es (Lesss.mono hE hk)
end

mutual
theorem less_prune {s : Pos → Bool} {pos : Pos} : ∀ {t t' : Node}, Less Eq t t' → Less Eq t (t'.prune s pos)
  | _, _, .other c t => .other c t
  | _, _, .elem (e' := e') rfl hk => by
    rw [Node.prune]
    exact .elem rfl (lesss_prunes hk)
theorem lesss_prunes {s : Pos → Bool} {pos : Pos} {i : Nat} : ∀ {t t' : List Node}, Lesss Eq t t' →
    Lesss Eq t (Node.prunes s pos i t')
  | _, _, .nil => .nil
  | _, _, .keep (.other c t) hk => by
    rw [Node.prunes]
    exact .keep (.other c t) (lesss_prunes hk)
  | _, _, .keep (.elem (ks' := es) rfl h) hk => by
    rw [Node.prunes]
    split
    · exact .drop _ _ (lesss_prunes hk)
    · refine .keep ?_ (lesss_prunes hk)
      rw [Node.prune]
      exact .elem rfl (lesss_prunes h)
  | _, _, .drop e es hk => .drop e es (lesss_prunes hk)
end

theorem less_optionals {fs : List Finder} {t t' t'' : Node} (h : Less Eq t t') (ht : removeOptionals fs t' = .ok t'') :
    Less Eq t t'' := by
  refine foldE_inv (fun s => Less Eq t s) fs t' t'' ?_ h ht
  intro s f s' _ hs hst
  split at hst
  · cases hst
  · simp only [Except.ok.injEq] at hst
    rw [← hst]
    exact less_prune hs

mutual
theorem less_pruneCtx {S : Ctx → Bool} {pos : Pos} {env : NsMap} {anc : List QName} : ∀ t : Node,
    Less Eq t (t.pruneCtx S pos env anc)
  | .other c t => .other c t
  | .elem e ks => by
    rw [Node.pruneCtx]
    exact .elem rfl (lesss_pruneCtxs ks)
theorem lesss_pruneCtxs {S : Ctx → Bool} {pos : Pos} {i : Nat} {env : NsMap} {anc : List QName} : ∀ ks : List Node,
    Lesss Eq ks (Node.pruneCtxs S pos i env anc ks)
  | [] => .nil
  | .other c t :: ks => by
    rw [Node.pruneCtxs]
    exact .keep (.other c t) (lesss_pruneCtxs ks)
  | .elem e es :: ks => by
    rw [Node.pruneCtxs]
    split
    · exact .drop _ _ (lesss_pruneCtxs ks)
    · exact .keep (less_pruneCtx _) (lesss_pruneCtxs ks)
end

/-- The same element in the larger and the smaller tree. -/
structure Twin (c c' : Ctx) : Prop where
  anc : c'.anc = c.anc
  env : c'.env = c.env
  e : c'.e = c.e
  kids : Lesss Eq c.kids c'.kids

theorem Twin.node {c c' : Ctx} (h : Twin c c') : Less Eq c.node c'.node := by
  unfold Ctx.node
  exact .elem h.e.symm h.kids

mutual
theorem less_mapCtx {E : Elem → Elem → Prop} {F F' : Ctx → Elem} (hF : ∀ c c', Twin c c' → E (F c) (F' c')) {pos pos' : Pos}
    {env : NsMap} {anc : List QName} : ∀ {t t' : Node}, Less Eq t t' →
    Less E (t.mapCtx F pos env anc) (t'.mapCtx F' pos' env anc)
  | _, _, .other c t => .other c t
  | _, _, .elem rfl hk => by
    rw [Node.mapCtx, Node.mapCtx]
    exact .elem (hF _ _ ⟨rfl, rfl, rfl, hk⟩) (lesss_mapCtxs hF hk)
theorem lesss_mapCtxs {E : Elem → Elem → Prop} {F F' : Ctx → Elem} (hF : ∀ c c', Twin c c' → E (F c) (F' c')) {pos pos' : Pos}
    {i j : Nat} {env : NsMap} {anc : List QName} : ∀ {t t' : List Node}, Lesss Eq t t' →
    Lesss E (Node.mapCtxs F pos i env anc t) (Node.mapCtxs F' pos' j env anc t')
  | _, _, .nil => .nil
  | _, _, .keep h hk => by
    rw [Node.mapCtxs, Node.mapCtxs]
    exact .keep (less_mapCtx hF h) (lesss_mapCtxs hF hk)
  | _, _, .drop e es hk => by
    rw [Node.mapCtxs, Node.mapCtx]
    exact .drop _ _ (lesss_mapCtxs hF hk)
end

mutual
theorem less_substCtx {R R' : Ctx → Option Node} (hR : ∀ c c', Twin c c' → (R c = none ∧ R' c' = none) ∨
    ∃ n n', R c = some n ∧ R' c' = some n' ∧ Less Eq n n') (hD : ∀ c n, R c = some n → ∃ e ks, n = .elem e ks) {pos pos' : Pos}
    {env : NsMap} {anc : List QName} : ∀ {t t' : Node}, Less Eq t t' →
    Less Eq (t.substCtx R pos env anc) (t'.substCtx R' pos' env anc)
  | _, _, .other c t => .other c t
  | _, _, .elem rfl hk => by
    rw [Node.substCtx, Node.substCtx]
    rcases hR ⟨pos, _, anc, _, _⟩ ⟨pos', _, anc, _, _⟩ ⟨rfl, rfl, rfl, hk⟩ with ⟨h1, h2⟩ | ⟨n, n', h1, h2, h3⟩
    · rw [h1, h2]
      exact .elem rfl (lesss_substCtxs hR hD hk)
    · rw [h1, h2]
      exact h3
theorem lesss_substCtxs {R R' : Ctx → Option Node} (hR : ∀ c c', Twin c c' → (R c = none ∧ R' c' = none) ∨
    ∃ n n', R c = some n ∧ R' c' = some n' ∧ Less Eq n n') (hD : ∀ c n, R c = some n → ∃ e ks, n = .elem e ks) {pos pos' : Pos}
    {i j : Nat} {env : NsMap} {anc : List QName} : ∀ {t t' : List Node}, Lesss Eq t t' →
    Lesss Eq (Node.substCtxs R pos i env anc t) (Node.substCtxs R' pos' j env anc t')
  | _, _, .nil => .nil
  | _, _, .keep h hk => by
    rw [Node.substCtxs, Node.substCtxs]
    exact .keep (less_substCtx hR hD h) (lesss_substCtxs hR hD hk)
  | _, _, .drop e es hk => by
    rw [Node.substCtxs, Node.substCtx]
    split
    · next n hn =>
      obtain ⟨e', ks', rfl⟩ := hD _ _ hn
      exact .drop _ _ (lesss_substCtxs hR hD hk)
    · exact .drop _ _ (lesss_substCtxs hR hD hk)
end

/-! ## Helpers: the passes -/

theorem less_schemalocs (u : Cls) {t t' : Node} (h : Less Eq t t') : Less Eq (u.updateSchemalocs t) (u.updateSchemalocs t') := by
  cases h with
  | other c t => exact .other c t
  | elem he hk => subst he; exact .elem rfl hk

/-- No alternative looks at the children. -/
def childless (alts : List XAlt) : Bool := alts.all (fun a => match a.pred with | .hasChild _ => false | _ => true)

theorem twin_selects {m : List (String × String)} {alts : List XAlt} (hc : childless alts = true) {c c' : Ctx} (h : Twin c c') :
    alts.any (fun a => a.selects m c') = alts.any (fun a => a.selects m c) := by
  induction alts with
  | nil => rfl
  | cons a as ih =>
    simp only [childless, List.all_cons, Bool.and_eq_true] at hc
    simp only [List.any_cons]
    rw [ih hc.2]
    congr 1
    simp only [XAlt.selects, h.e, h.anc]
    congr 1
    have := hc.1
    revert this
    cases a.pred <;> simp [XPred.holds, h.e]

theorem less_versions {u : Cls} (hu : childless u.xpathVersioned = true) (i v : String) {t t' : Node} (h : Less Eq t t') :
    Less Eq (stixUpdateVersions u i v t) (stixUpdateVersions u i v t') := by
  rw [stixVersions_eq, stixVersions_eq]
  refine less_mapCtx (fun c c' hc => ?_) h
  simp only [versionEdit, twin_selects hu hc, hc.e]

theorem twin_vocab (v : Vocab) {c c' : Ctx} (h : Twin c c') : v.edit c' = v.edit c := by
  have hw : v.wanted c' = v.wanted c := by simp only [Vocab.wanted, getExtNamespace, h.e, h.env]
  simp only [Vocab.edit, Vocab.hit, h.e, h.anc, hw]
  rfl

theorem less_vocabs {vs : List Vocab} : ∀ {t t' d d' : Node}, Less Eq t t' → updateVocabs vs t = .ok d → updateVocabs vs t' = .ok d' →
    Less Eq d d' := by
  induction vs with
  | nil =>
    intro t t' d d' h hd hd'
    cases hd; cases hd'; exact h
  | cons v vs ih =>
    intro t t' d d' h hd hd'
    simp only [updateVocabs, foldE] at hd hd'
    split at hd
    · cases hd
    · next a ha =>
      split at hd'
      · cases hd'
      · next b hb =>
        refine ih ?_ hd hd'
        rw [(vocabUpdate_eq ha).1, (vocabUpdate_eq hb).1]
        exact less_mapCtx (fun c c' hc => (twin_vocab v hc).symm) h

theorem less_vocabsIf {b : Bool} {vs : List Vocab} {t t' d d' : Node} (h : Less Eq t t')
    (hd : (if b then updateVocabs vs t else .ok t) = .ok d) (hd' : (if b then updateVocabs vs t' else .ok t') = .ok d') :
    Less Eq d d' := by
  cases b with
  | true => exact less_vocabs h hd hd'
  | false => cases hd; cases hd'; exact h

/-- A field translation is the same for twins, and gives elements. -/
def TwinSafe (g : Ctx → Except Err Node) : Prop :=
  (∀ c c', Twin c c' → (∃ x y, g c = .error x ∧ g c' = .error y) ∨ ∃ n n', g c = .ok n ∧ g c' = .ok n' ∧ Less Eq n n') ∧
  ∀ c n, g c = .ok n → ∃ e ks, n = .elem e ks

/-- The node put in place. -/
def putFor (g : Ctx → Except Err Node) (c : Ctx) : Node := match g c with | .ok n => n | .error _ => c.node

theorem translate_put {alts : List XAlt} {m : List (String × String)} {g : Ctx → Except Err Node} {t d : Node}
    (h : (⟨alts, m, .custom g⟩ : Trans).translate t = .ok d) :
    d = t.replaceBy (fun c => if alts.any (fun a => a.selects m c) then some (putFor g c) else none) := by
  simp only [Trans.translate] at h
  split at h
  · cases h
  · next l hl =>
    simp only [Except.ok.injEq] at h
    obtain ⟨h1, h2⟩ := mapE_eq hl
    have hl' := h2 (fun c => (c.pos, putFor g c)) (fun c b hb => by
      obtain ⟨n, hn, hb'⟩ := except_map_ok hb
      rw [← hb']
      simp only [putFor, hn])
    rw [hl'] at h
    rw [← h]; exact replaceAll_filter t _ _

theorem less_custom {alts : List XAlt} {m : List (String × String)} {g : Ctx → Except Err Node} (hc : childless alts = true)
    (hg : TwinSafe g) {t t' d d' : Node} (h : Less Eq t t') (hd : (⟨alts, m, .custom g⟩ : Trans).translate t = .ok d)
    (hd' : (⟨alts, m, .custom g⟩ : Trans).translate t' = .ok d') : Less Eq d d' := by
  rw [translate_put hd, translate_put hd']
  refine less_substCtx (fun c c' ht => ?_) (fun c n hn => ?_) h
  · dsimp only
    rw [ht.anc, twin_selects hc ht]
    split
    · exact Or.inl ⟨rfl, rfl⟩
    · split
      · refine Or.inr ⟨_, _, rfl, rfl, ?_⟩
        unfold putFor
        rcases hg.1 c c' ht with ⟨x, y, h1, h2⟩ | ⟨n, n', h1, h2, h3⟩
        · rw [h1, h2]; exact ht.node
        · rw [h1, h2]; exact h3
      · exact Or.inl ⟨rfl, rfl⟩
  · split at hn
    · cases hn
    · dsimp only at hn
      split at hn
      · cases hn
        unfold putFor
        split
        · next n hn => exact hg.2 c n hn
        · exact ⟨_, _, rfl⟩
      · cases hn

theorem less_translate {fs : List Trans} (hfs : ∀ f ∈ fs, ∃ g, f.kind = .custom g ∧ childless f.xpath = true ∧ TwinSafe g) :
    ∀ {t t' d d' : Node}, Less Eq t t' → translateFields fs t = .ok d → translateFields fs t' = .ok d' → Less Eq d d' := by
  induction fs with
  | nil =>
    intro t t' d d' h hd hd'
    cases hd; cases hd'; exact h
  | cons f fs ih =>
    intro t t' d d' h hd hd'
    simp only [translateFields, foldE] at hd hd'
    split at hd
    · cases hd
    · next a ha =>
      split at hd'
      · cases hd'
      · next b hb =>
        refine ih (fun f hf => hfs f (List.mem_cons_of_mem _ hf)) ?_ hd hd'
        obtain ⟨g, h1, h2, h3⟩ := hfs f (by simp)
        obtain ⟨xp, m, kind⟩ := f
        cases h1
        exact less_custom h2 h3 h ha hb

theorem less_new {tag : QName} {attrs : Attrs} {text : Option String} {ks ks' : List Node} (h : Lesss Eq ks ks') :
    Less Eq (newElem tag attrs text ks) (newElem tag attrs text ks') := .elem rfl h

theorem contributors_twin {ks ks' : List Node} (h : Lesss Eq ks ks') :
    (∃ x y, mapE translateContributor ks = .error x ∧ mapE translateContributor ks' = .error y) ∨
    ∃ l l', mapE translateContributor ks = .ok l ∧ mapE translateContributor ks' = .ok l' ∧ Lesss Eq l l' := by
  induction ks generalizing ks' with
  | nil => cases h; exact Or.inr ⟨[], [], rfl, rfl, .nil⟩
  | cons k ks ih =>
    cases h with
    | keep hk h =>
      cases hk with
      | other c t => exact Or.inl ⟨_, _, rfl, rfl⟩
      | elem he hes =>
        subst he
        rcases ih h with ⟨x, y, h1, h2⟩ | ⟨l, l', h1, h2, h3⟩
        · exact Or.inl ⟨x, y, by simp only [mapE, translateContributor, h1], by simp only [mapE, translateContributor, h2]⟩
        · exact Or.inr ⟨_, _, by simp only [mapE, translateContributor, h1]; rfl, by simp only [mapE, translateContributor, h2]; rfl,
            .keep (less_new (.keep (.elem rfl hes) .nil)) h3⟩
    | drop e es h =>
      rcases ih h with ⟨x, y, h1, h2⟩ | ⟨l, l', h1, h2, h3⟩
      · exact Or.inl ⟨x, y, by simp only [mapE, translateContributor, h1], h2⟩
      · exact Or.inr ⟨_, _, by simp only [mapE, translateContributor, h1]; rfl, h2, .drop _ _ h3⟩

theorem safe_contributors : TwinSafe translateContributors := by
  refine ⟨fun c c' h => ?_, fun c n hn => ?_⟩
  · unfold translateContributors
    rcases contributors_twin h.kids with ⟨x, y, h1, h2⟩ | ⟨l, l', h1, h2, h3⟩
    · exact Or.inl ⟨x, y, by rw [h1], by rw [h2]⟩
    · exact Or.inr ⟨_, _, by rw [h1], by rw [h2], less_new h3⟩
  · unfold translateContributors at hn
    split at hn
    · cases hn
    · cases hn; exact ⟨_, _, rfl⟩

theorem safe_exploit : TwinSafe wrapExploitTarget :=
  ⟨fun _ _ h => Or.inr ⟨_, _, rfl, rfl, less_new (.keep h.node .nil)⟩, fun _ _ hn => by cases hn; exact ⟨_, _, rfl⟩⟩

theorem safe_campaign : TwinSafe wrapRelatedCampaign :=
  ⟨fun c c' h => Or.inr ⟨_, _, rfl, rfl, less_new (.keep (by
      unfold copyRetag
      rw [h.e]
      exact .elem rfl h.kids) .nil)⟩, fun _ _ hn => by cases hn; exact ⟨_, _, rfl⟩⟩

theorem safe_ofElem {g : Ctx → Except Err Node} (h : ∀ c c', c'.e = c.e → g c' = g c)
    (hn : ∀ c n, g c = .ok n → ∃ e ks, n = .elem e ks) : TwinSafe g := by
  refine ⟨fun c c' ht => ?_, hn⟩
  rw [h c c' ht.e]
  cases hg : g c with
  | error x => exact Or.inl ⟨x, x, rfl, rfl⟩
  | ok n => exact Or.inr ⟨n, n, rfl, rfl, Less.refl (fun _ => rfl) n⟩

/-- What the XML parser gives is an element. -/
def ParsesElements (w : World) : Prop := ∀ s n, w.parseXml s = some n → ∃ e ks, n = .elem e ks

theorem fromstring_elem {w : World} (hw : ParsesElements w) {s : String} {n : Node} (h : fromstring w s = .ok n) :
    ∃ e ks, n = .elem e ks := by
  unfold fromstring at h
  split at h
  · next m hm => cases h; exact hw _ _ hm
  · cases h

theorem safe_common {w : World} (hw : ParsesElements w) : TwinSafe (translateCommonSource w) := by
  refine safe_ofElem (fun c c' h => by simp only [translateCommonSource, h]) (fun c n hn => ?_)
  simp only [translateCommonSource] at hn
  split at hn
  · cases hn; exact ⟨_, _, rfl⟩
  · exact fromstring_elem hw hn

theorem safe_sighting {w : World} (hw : ParsesElements w) : TwinSafe (translateSightingSource w) := by
  refine safe_ofElem (fun c c' h => by simp only [translateSightingSource, h]) (fun c n hn => ?_)
  simp only [translateSightingSource] at hn
  split at hn
  · cases hn; exact ⟨_, _, rfl⟩
  · exact fromstring_elem hw hn

/-! ## Helpers: the steps -/

/-- The document after a step without (`a`) and with (`b`) the option. -/
def offOn (u : Updater) (o : Options) (t t' a b : Node) : Prop :=
  u.update { o with removeOptionals := false } t = .ok a ∧ u.update { o with removeOptionals := true } t' = .ok b

theorem less_stix101 {w : World} {o : Options} {t a b : Node} (h : offOn (stix101 w) o t t a b) : Less Eq a b := by
  obtain ⟨ha, hb⟩ := h
  have ha' : stix101Update w { o with removeOptionals := false } t = .ok a := ha
  have hb' : stix101Update w { o with removeOptionals := true } t = .ok b := hb
  unfold stix101Update at ha' hb'
  rw [cybox201_option rfl] at hb'
  cases hc : cybox201Update stix101Cybox { o with removeOptionals := false } t with
  | error x => rw [hc] at ha'; cases ha'
  | ok c =>
    rw [hc] at ha' hb'
    simp only [Except.map, if_true, Bool.false_eq_true, if_false] at ha' hb'
    rw [updateNamespaces_none rfl] at ha' hb'
    have h0 : Less Eq c (c.without (optSel optional21)) := less_pruneCtx c
    have h1 := less_versions (u := stix101Cls w) (by show childless xpathStixVersioned = true; decide) "2.1" "1.1" (less_schemalocs (stix101Cls w) h0)
    split at ha'
    · cases ha'
    · next d hd =>
      split at hb'
      · cases hb'
      · next d' hd' =>
        have h2 := less_translate (fs := (stix101Cls w).translatable) (by
          intro f hf
          simp only [stix101Cls, List.mem_cons, List.not_mem_nil, or_false] at hf
          rcases hf with rfl | rfl
          · exact ⟨_, rfl, by decide, safe_contributors⟩
          · exact ⟨_, rfl, by decide, safe_exploit⟩) h1 hd hd'
        split at ha'
        · cases ha'
        · next f hf =>
          split at hb'
          · cases hb'
          · next f' hf' =>
            cases ha'
            exact less_optionals (less_vocabsIf h2 hf hf') hb'

theorem less_stix11 {w : World} (hw : ParsesElements w) {o : Options} {t t' a b : Node} (ht : Less Eq t t')
    (h : offOn (stix11 w) o t t' a b) : Less Eq a b := by
  obtain ⟨ha, hb⟩ := h
  have ha' : stix11Update w { o with removeOptionals := false } t = .ok a := ha
  have hb' : stix11Update w { o with removeOptionals := true } t' = .ok b := hb
  unfold stix11Update at ha' hb'
  simp only [if_true, Bool.false_eq_true, if_false] at ha' hb'
  have h1 := less_versions (u := stix11Cls w) (by show childless xpathStixVersioned = true; decide) "2.1.1" "1.1.1" (less_schemalocs (stix11Cls w) (less_schemalocs stix11Cybox ht))
  split at ha'
  · cases ha'
  · next d hd =>
    split at hb'
    · cases hb'
    · next d' hd' =>
      have h2 := less_translate (fs := (stix11Cls w).translatable) (by
        intro f hf
        simp only [stix11Cls, List.mem_cons, List.not_mem_nil, or_false] at hf
        rcases hf with rfl | rfl | rfl
        · exact ⟨_, rfl, (by show childless (sourceParents.map (fun p => relIn p.1 p.2 "stixCommon" "Source")) = true; decide), safe_common hw⟩
        · exact ⟨_, rfl, (by show childless [relIn "indicator" "Sighting" "indicator" "Source"] = true; decide), safe_sighting hw⟩
        · exact ⟨_, rfl, by decide, safe_campaign⟩) h1 hd hd'
      split at ha'
      · cases ha'
      · next f hf =>
        split at hb'
        · cases hb'
        · next f' hf' =>
          cases ha'
          exact less_optionals (less_vocabsIf h2 hf hf') hb'

theorem less_stix111 {o : Options} {t t' a b : Node} (ht : Less Eq t t') (h : offOn stix111 o t t' a b) : Less Eq a b := by
  obtain ⟨ha, hb⟩ := h
  have ha' : stix111Update { o with removeOptionals := false } t = .ok a := ha
  have hb' : stix111Update { o with removeOptionals := true } t' = .ok b := hb
  unfold stix111Update at ha' hb'
  exact less_vocabsIf (less_versions (u := stix111Cls) (by decide) "2.2" "1.2" (less_schemalocs stix111Cls ht)) ha' hb'

theorem sameOrText_root {f : Elem → Elem} (h1 : ∀ e s, f { e with text := s } = { f e with text := s })
    (h2 : ∀ e, (f e).text = e.text ∧ (f e).tag = e.tag) {e e' : Elem} (h : SameOrText e e') : SameOrText (f e) (f e') := by
  rcases h with rfl | ⟨h3, h4, h5⟩
  · exact Or.inl rfl
  · refine Or.inr ⟨(h2 e).1.trans h3, ?_, by rw [(h2 e).2]; exact h5⟩
    rw [(h2 e').1, ← h1]
    exact congrArg f h4

theorem less_stix12 {o : Options} {t t' a b : Node} (ht : Less Eq t t') (h : offOn stix12 o t t' a b) : Less SameOrText a b := by
  obtain ⟨ha, hb⟩ := h
  cases ha; cases hb
  have h1 : Less SameOrText (stix12Cls.updateNamespaces [] t) (stix12Cls.updateNamespaces [] t') := by
    rw [updateNamespaces_eq, updateNamespaces_eq]
    refine less_mapCtx (fun c c' hc => ?_) ht
    simp only [nsEdit, hc.e, hc.env]
    split
    · next hns =>
      simp only [Cls.updateNsmapElem]
      by_cases hk : c.kids = []
      · have hk' : c'.kids = [] := by
          have := hc.kids
          rw [hk] at this
          generalize c'.kids = l at this
          cases this; rfl
        rw [hk, hk']
        exact Or.inl rfl
      · have hn : getNodeText c.e c.kids = none := if_pos (List.length_pos_iff.2 hk)
        rw [hn]
        refine Or.inr ⟨rfl, rfl, ?_⟩
        unfold Cls.nsUpdated at hns
        split at hns
        · cases hns
        · next n hq =>
          obtain ⟨m, hm⟩ := Option.isSome_iff_exists.1 hns
          refine ⟨(n, m), ?_, ?_⟩
          · rw [← oasis_eq]; exact assoc_mem hm
          · simp only [Cls.remappedTag, hq, Option.map_some, hm, Option.getD_some]
    · exact Or.inl rfl
  have h2 : ∀ {x y : Node}, Less SameOrText x y → ∀ f : Elem → Elem, (∀ e s, f { e with text := s } = { f e with text := s }) →
      (∀ e, (f e).text = e.text ∧ (f e).tag = e.tag) → ∀ F : Node → Node, (∀ e ks, F (.elem e ks) = .elem (f e) ks) →
      (∀ c t, F (.other c t) = .other c t) → Less SameOrText (F x) (F y) := by
    intro x y h f f1 f2 F F1 F2
    cases h with
    | other c t => rw [F2]; exact .other c t
    | elem he hk => rw [F1, F1]; exact .elem (sameOrText_root f1 f2 he) hk
  refine h2 (h2 h1 stix12Cls.updateSchemalocsElem (fun e s => ?_) (fun e => ?_) stix12Cls.updateSchemalocs (fun _ _ => rfl) (fun _ _ => rfl))
    (fun e => e.set attrVersion "1.2.1") (fun _ _ => rfl) (fun _ => ⟨rfl, rfl⟩) (setRootVersion "1.2.1") (fun _ _ => rfl) (fun _ _ => rfl)
  · unfold Cls.updateSchemalocsElem
    show (match e.get? tagSchemaLoc with | none => _ | some v => _) = _
    cases e.get? tagSchemaLoc <;> rfl
  · unfold Cls.updateSchemalocsElem
    cases e.get? tagSchemaLoc <;> exact ⟨rfl, rfl⟩

theorem step_same {w : World} {u : Updater} (hu : Registered w u)
    (hc : ∀ (o : Options) b t, u.check { o with removeOptionals := b } t = u.check o t) {o : Options} {force : Bool}
    {k k0 k1 : Nat} {t : Node} {r0 r1 : Result}
    (h0 : stepUpdate u { o with removeOptionals := false } force k t = .ok (r0, k0))
    (h1 : stepUpdate u { o with removeOptionals := true } force k t = .ok (r1, k1)) :
    ∃ x, offOn u o x x r0.doc r1.doc ∧ r1.removed = r0.removed ∧ r1.remapped = r0.remapped ∧ k1 = k0 := by
  have part : ∀ b (r : Result) k', stepUpdate u { o with removeOptionals := b } force k t = .ok (r, k') →
      (u.check o t = .ok () ∧ u.update { o with removeOptionals := b } t = .ok r.doc ∧ r.removed = [] ∧ r.remapped = [] ∧ k' = k) ∨
      ((∃ y, u.check o t = .error y) ∧ ∃ q, clean u o k t = .ok (q, k') ∧ u.update { o with removeOptionals := b } q.doc = .ok r.doc ∧
        r.removed = q.removed ∧ r.remapped = q.remapped) := by
    intro b r k' h
    unfold stepUpdate tryUpdate at h
    rw [hc] at h
    cases hck : u.check o t with
    | ok a =>
      rw [hck] at h
      simp only at h
      cases hu1 : u.update { o with removeOptionals := b } t with
      | ok d => rw [hu1] at h; cases h; exact Or.inl ⟨rfl, rfl, rfl, rfl, rfl⟩
      | error x =>
        rw [hu1] at h
        have := noRefuse_update hu _ _ x hu1
        simp [this] at h
    | error x =>
      rw [hck] at h
      simp only at h
      split at h
      · unfold forceUpdate at h
        rw [show clean u { o with removeOptionals := b } k t = clean u o k t from rfl] at h
        split at h
        · cases h
        · next q kq hq =>
          split at h
          · cases h
          · next d hd => cases h; exact Or.inr ⟨⟨x, rfl⟩, q, hq, hd, rfl, rfl⟩
      · cases h
  rcases part _ _ _ h0 with ⟨a1, a2, a3, a4, a5⟩ | ⟨⟨y, a1⟩, q, a2, a3, a4, a5⟩
  · rcases part _ _ _ h1 with ⟨b1, b2, b3, b4, b5⟩ | ⟨⟨y, b1⟩, _⟩
    · exact ⟨t, ⟨a2, b2⟩, by rw [a3, b3], by rw [a4, b4], by rw [a5, b5]⟩
    · rw [a1] at b1; cases b1
  · rcases part _ _ _ h1 with ⟨b1, _⟩ | ⟨_, q', b2, b3, b4, b5⟩
    · rw [a1] at b1; cases b1
    · rw [a2] at b2
      cases b2
      exact ⟨q.doc, ⟨a3, b3⟩, by rw [a4, b4], by rw [a5, b5], rfl⟩

theorem step_plain {u : Updater} (hcl : ∀ o k t r k', clean u o k t = .ok (r, k') → r = ⟨t, [], []⟩ ∧ k' = k) {o : Options} {force : Bool}
    {k k' : Nat} {t : Node} {r : Result} (h : stepUpdate u o force k t = .ok (r, k')) :
    u.update o t = .ok r.doc ∧ r.removed = [] ∧ r.remapped = [] ∧ k' = k := by
  obtain ⟨r1, h1, h2, h3, ⟨rfl, h4⟩ | h4⟩ := step_parts h
  · exact ⟨h1, h2, h3, h4⟩
  · obtain ⟨rfl, h5⟩ := hcl _ _ _ _ _ h4
    exact ⟨h1, h2, h3, h5⟩

/-- How two documents may differ: not at all, by elements, or also by texts. -/
def Apart : Nat → Node → Node → Prop
  | 0, t, t' => t' = t
  | 1, t, t' => Less Eq t t'
  | _, t, t' => Less SameOrText t t'

theorem Apart.up {a b : Nat} (hab : a ≤ b) {t t' : Node} (h : Apart a t t') : Apart b t t' := by
  have l1 : Apart 1 t t' → Less SameOrText t t' := fun h => Less.mono (fun _ _ h => Or.inl h.symm) h
  match a, b, hab, h with
  | 0, 0, _, h => exact h
  | 0, 1, _, h => rw [show t' = t from h]; exact Less.refl (fun _ => rfl) t
  | 0, b + 2, _, h => rw [show t' = t from h]; exact Less.refl (fun _ => Or.inl rfl) t
  | 1, 1, _, h => exact h
  | 1, b + 2, _, h => exact l1 h
  | a + 2, b + 2, _, h => exact h
  | a + 2, 0, hab, _ => omega
  | a + 2, 1, hab, _ => omega
  | 1, 0, hab, _ => omega

/-- Before and after the step from a version. -/
def apartAt (v : String) : Nat × Nat :=
  if v = "1.0" ∨ v = "2.0" then (0, 0) else if v = "1.0.1" ∨ v = "2.0.1" then (0, 1) else if v = "1.2" then (1, 2) else (1, 1)

/-- The steps fit. -/
def apartFits : Nat → List String → Bool
  | _, [] => true
  | l, v :: vs => decide (l ≤ (apartAt v).1) && apartFits (apartAt v).2 vs

/-- The registered steps. -/
inductive Steps (w : World) : String → Updater → Prop
  | a : Steps w "2.0" cybox20
  | b : Steps w "2.0.1" cybox201
  | c : Steps w "1.0" stix10
  | d : Steps w "1.0.1" (stix101 w)
  | e : Steps w "1.1" (stix11 w)
  | f : Steps w "1.1.1" stix111
  | g : Steps w "1.2" stix12

theorem steps_stix {w : World} {v : String} {u : Updater} (h : assoc (stixUpdaters w) v = some u) : Steps w v u := by
  simp only [stixUpdaters, assoc] at h
  repeat' split at h
  all_goals first | (next e => subst e; cases h; constructor) | cases h

theorem steps_cybox {w : World} {v : String} {u : Updater} (h : assoc cyboxUpdaters v = some u) : Steps w v u := by
  simp only [cyboxUpdaters, assoc] at h
  repeat' split at h
  all_goals first | (next e => subst e; cases h; constructor) | cases h

theorem step_apart {w : World} (hw : ParsesElements w) {v : String} {u : Updater} (hu : Steps w v u) {o : Options} {force : Bool}
    {k k0 k1 : Nat} {t t' : Node} {r0 r1 : Result} (ht : Apart (apartAt v).1 t t')
    (h0 : stepUpdate u { o with removeOptionals := false } force k t = .ok (r0, k0))
    (h1 : stepUpdate u { o with removeOptionals := true } force k t' = .ok (r1, k1)) :
    Apart (apartAt v).2 r0.doc r1.doc ∧ r1.removed = r0.removed ∧ r1.remapped = r0.remapped ∧ k1 = k0 := by
  cases hu with
  | a =>
    cases (show t' = t from ht)
    rw [C22_other cybox20 (by simp)] at h0 h1
    rw [h0] at h1; cases h1
    exact ⟨rfl, rfl, rfl, rfl⟩
  | c =>
    cases (show t' = t from ht)
    rw [C22_other stix10 (by simp)] at h0 h1
    rw [h0] at h1; cases h1
    exact ⟨rfl, rfl, rfl, rfl⟩
  | b =>
    cases (show t' = t from ht)
    obtain ⟨d, h2, ⟨S, _, h3⟩, _⟩ := C22_cybox_partial o force k k1 t r1 h1
    rw [h0] at h2
    cases h2
    refine ⟨?_, rfl, rfl, rfl⟩
    show Less Eq _ _
    rw [h3]
    exact less_pruneCtx _
  | d =>
    cases (show t' = t from ht)
    obtain ⟨x, h2, h3⟩ := step_same (w := w) .stix101 (fun _ _ _ => rfl) h0 h1
    exact ⟨less_stix101 h2, h3⟩
  | e =>
    have hcl : ∀ o k t r k', clean (stix11 w) o k t = .ok (r, k') → r = ⟨t, [], []⟩ ∧ k' = k := by
      intro o k t r k' h; cases h; exact ⟨rfl, rfl⟩
    obtain ⟨a1, a2, a3, a4⟩ := step_plain hcl h0
    obtain ⟨b1, b2, b3, b4⟩ := step_plain hcl h1
    exact ⟨less_stix11 hw ht ⟨a1, b1⟩, by rw [a2, b2], by rw [a3, b3], by rw [a4, b4]⟩
  | f =>
    have hcl : ∀ o k t r k', clean stix111 o k t = .ok (r, k') → r = ⟨t, [], []⟩ ∧ k' = k := by
      intro o k t r k' h; cases h; exact ⟨rfl, rfl⟩
    obtain ⟨a1, a2, a3, a4⟩ := step_plain hcl h0
    obtain ⟨b1, b2, b3, b4⟩ := step_plain hcl h1
    exact ⟨less_stix111 ht ⟨a1, b1⟩, by rw [a2, b2], by rw [a3, b3], by rw [a4, b4]⟩
  | g =>
    have hcl : ∀ o k t r k', clean stix12 o k t = .ok (r, k') → r = ⟨t, [], []⟩ ∧ k' = k := by
      intro o k t r k' h; cases h
    obtain ⟨a1, a2, a3, a4⟩ := step_plain hcl h0
    obtain ⟨b1, b2, b3, b4⟩ := step_plain hcl h1
    exact ⟨less_stix12 ht ⟨a1, b1⟩, by rw [a2, b2], by rw [a3, b3], by rw [a4, b4]⟩

theorem chain_apart {w : World} (hw : ParsesElements w) {reg : List (String × Updater)} (hreg : ∀ v u, assoc reg v = some u → Steps w v u)
    (o : Options) (force : Bool) : ∀ (vs : List String) (l : Nat) (a0 a1 r0 r1 : Result) (k k0 k1 : Nat), l ≤ 2 → apartFits l vs = true →
    Apart l a0.doc a1.doc → a1.removed = a0.removed → a1.remapped = a0.remapped →
    chainLoop reg { o with removeOptionals := false } force vs a0 k = .ok (r0, k0) →
    chainLoop reg { o with removeOptionals := true } force vs a1 k = .ok (r1, k1) →
    (∃ l', l' ≤ 2 ∧ ("1.2" ∉ vs → l ≤ 1 → l' ≤ 1) ∧ Apart l' r0.doc r1.doc) ∧ r1.removed = r0.removed ∧ r1.remapped = r0.remapped ∧ k1 = k0
  | [], l, a0, a1, r0, r1, k, k0, k1, hl, _, hd, hr, hm, h0, h1 => by
    cases h0; cases h1
    exact ⟨⟨l, hl, fun _ h => h, hd⟩, hr, hm, rfl⟩
  | v :: vs, l, a0, a1, r0, r1, k, k0, k1, hl, hf, hd, hr, hm, h0, h1 => by
    simp only [apartFits, Bool.and_eq_true, decide_eq_true_eq] at hf
    simp only [chainLoop] at h0 h1
    cases hu : assoc reg v with
    | none => rw [hu] at h0; cases h0
    | some u =>
      rw [hu] at h0 h1
      simp only at h0 h1
      split at h0
      · cases h0
      · next p0 q0 hp0 =>
        split at h1
        · cases h1
        · next p1 q1 hp1 =>
          obtain ⟨s1, s2, s3, s4⟩ := step_apart hw (hreg v u hu) (Apart.up hf.1 hd) hp0 hp1
          subst s4
          have hl2 : (apartAt v).2 ≤ 2 ∧ (v ≠ "1.2" → (apartAt v).2 ≤ 1) := by
            unfold apartAt
            repeat' split
            all_goals simp_all
          obtain ⟨⟨l', c1, c2, c3⟩, c4⟩ := chain_apart hw hreg o force vs _
            ⟨p0.doc, a0.removed ++ p0.removed, dictUpdate a0.remapped p0.remapped⟩
            ⟨p1.doc, a1.removed ++ p1.removed, dictUpdate a1.remapped p1.remapped⟩ r0 r1 _ k0 k1 hl2.1 hf.2 s1
            (by show a1.removed ++ _ = _; rw [hr, s2]) (by show dictUpdate a1.remapped _ = _; rw [hm, s3]) h0 h1
          refine ⟨⟨l', c1, fun hv _ => ?_, c3⟩, c4⟩
          simp only [List.mem_cons, not_or] at hv
          exact c2 hv.2 (hl2.2 (fun e => hv.1 e.symm))

theorem slice_fits {vs : List String} (h : ∀ a < vs.length, ∀ b ≤ vs.length, apartFits 0 ((vs.take a).drop b) = true) (x y : String)
    (hy : y ∈ vs) : apartFits 0 (versionSlice vs x y) = true := h _ (List.idxOf_lt_length_iff.2 hy) _ List.idxOf_le_length

theorem update_chains {w : World} {t : Node} {from_ to_ : Option String} {o : Options} {force : Bool} {k k0 k1 : Nat} {r0 r1 : Result}
    (h0 : update w t from_ to_ { o with removeOptionals := false } force k = .ok (r0, k0))
    (h1 : update w t from_ to_ { o with removeOptionals := true } force k = .ok (r1, k1)) :
    ∃ reg vs, (∀ v u, assoc reg v = some u → Steps w v u) ∧ apartFits 0 vs = true ∧
      ((∃ v, to_ = some v ∧ v ≠ "" ∧ v ≠ "1.2.1") → "1.2" ∉ vs) ∧
      chainLoop reg { o with removeOptionals := false } force vs ⟨t, [], []⟩ k = .ok (r0, k0) ∧
      chainLoop reg { o with removeOptionals := true } force vs ⟨t, [], []⟩ k = .ok (r1, k1) := by
  have chain : ∀ (vs : List String) reg f g, (∀ v u, assoc reg v = some u → Steps w v u) →
      (∀ a < vs.length, ∀ b ≤ vs.length, apartFits 0 ((vs.take a).drop b) = true) →
      (∀ y, g = some y → y ∈ vs → (∃ v, to_ = some v ∧ v ≠ "" ∧ v ≠ "1.2.1") → ∀ x, "1.2" ∉ versionSlice vs x y) →
      runChain vs reg t f g { o with removeOptionals := false } force k = .ok (r0, k0) →
      runChain vs reg t f g { o with removeOptionals := true } force k = .ok (r1, k1) →
      ∃ reg vs, (∀ v u, assoc reg v = some u → Steps w v u) ∧ apartFits 0 vs = true ∧
        ((∃ v, to_ = some v ∧ v ≠ "" ∧ v ≠ "1.2.1") → "1.2" ∉ vs) ∧
        chainLoop reg { o with removeOptionals := false } force vs ⟨t, [], []⟩ k = .ok (r0, k0) ∧
        chainLoop reg { o with removeOptionals := true } force vs ⟨t, [], []⟩ k = .ok (r1, k1) := by
    intro vs reg f g hreg hfit hto h0 h1
    simp only [runChain] at h0 h1
    cases hv : (validateVersions f g vs : Except Err _) with
    | error x => rw [hv] at h0; cases h0
    | ok p =>
      rw [hv] at h0 h1
      obtain ⟨_, hg, _, hm, _⟩ := validateVersions_ok hv
      exact ⟨reg, _, hreg, slice_fits hfit _ _ hm, fun h => hto _ hg hm h _, h0, h1⟩
  simp only [update] at h0 h1
  cases hr : t.root? with
  | none => rw [hr] at h0; cases h0
  | some e =>
    rw [hr] at h0 h1
    simp only at h0 h1
    split at h0
    · next hp =>
      rw [if_pos hp] at h1
      refine chain stixVersions (stixUpdaters w) _ _ (fun v u hu => steps_stix hu) (by decide) ?_ h0 h1
      rintro y hy hm ⟨v, rfl, hv0, hv⟩ x
      have e1 : y = v := by
        have : falsy (some v) = false := by simp [falsy, hv0]
        simp only [pyOr, this, Bool.false_eq_true, if_false, Option.some.injEq] at hy
        exact hy.symm
      subst e1
      intro h
      have h' : "1.2" ∈ stixVersions.take (stixVersions.idxOf y) := List.mem_of_mem_drop h
      revert h'
      revert hm hv
      simp only [stixVersions, List.mem_cons, List.not_mem_nil, or_false]
      rintro (rfl | rfl | rfl | rfl | rfl | rfl) hv
      all_goals first | decide | exact absurd rfl hv
    · next hp =>
      rw [if_neg hp] at h1
      split at h0
      · next hq =>
        rw [if_pos hq] at h1
        cases hf : cyboxFrom t from_ with
        | error x => rw [hf] at h0; cases h0
        | ok f =>
          rw [hf] at h0 h1
          simp only [cyboxUpdate] at h0 h1
          cases hf2 : cyboxFrom t f with
          | error x => rw [hf2] at h0; cases h0
          | ok f2 =>
            rw [hf2] at h0 h1
            refine chain cyboxVersions cyboxUpdaters _ _ (fun v u hu => steps_cybox hu) (by decide) ?_ h0 h1
            intro y _ _ _ x h
            have h' : "1.2" ∈ cyboxVersions := List.mem_of_mem_take (List.mem_of_mem_drop h)
            revert h'
            decide
      · cases h0

/-! ## Theorems -/

/-- C68: where a document can be updated both with and without removing optional elements, the option only takes whole
elements away, and the same nodes and ids are reported.
Partial: the last step loses the text of renamed elements with children, so an element that has lost its last child may
have kept a text (`C68_text_fails`). -/
theorem C68_switch_partial (w : World) (hw : ParsesElements w) (t : Node) (from_ to_ : Option String) (o : Options) (force : Bool)
    (k k0 k1 : Nat) (off on : Result)
    (h0 : update w t from_ to_ { o with removeOptionals := false } force k = .ok (off, k0))
    (h1 : update w t from_ to_ { o with removeOptionals := true } force k = .ok (on, k1)) :
    Less SameOrText off.doc on.doc ∧ on.removed = off.removed ∧ on.remapped = off.remapped ∧ k1 = k0 := by
  obtain ⟨reg, vs, hreg, hfit, _, c0, c1⟩ := update_chains h0 h1
  obtain ⟨⟨l, hl, _, hd⟩, h2⟩ := chain_apart hw hreg o force vs 0 _ _ off on k k0 k1 (by decide) hfit rfl rfl rfl c0 c1
  exact ⟨Apart.up (b := 2) hl hd, h2⟩

/-- C68 for every target but STIX 1.2.1: all that is left is as without the option. -/
theorem C68_exact_partial (w : World) (hw : ParsesElements w) (t : Node) (from_ : Option String) (to_ : String) (o : Options)
    (force : Bool) (k k0 k1 : Nat) (off on : Result) (hto : to_ ≠ "" ∧ to_ ≠ "1.2.1")
    (h0 : update w t from_ (some to_) { o with removeOptionals := false } force k = .ok (off, k0))
    (h1 : update w t from_ (some to_) { o with removeOptionals := true } force k = .ok (on, k1)) :
    Less Eq off.doc on.doc ∧ on.removed = off.removed ∧ on.remapped = off.remapped ∧ k1 = k0 := by
  obtain ⟨reg, vs, hreg, hfit, hv, c0, c1⟩ := update_chains h0 h1
  obtain ⟨⟨l, _, hl, hd⟩, h2⟩ := chain_apart hw hreg o force vs 0 _ _ off on k k0 k1 (by decide) hfit rfl rfl rfl c0 c1
  exact ⟨Apart.up (b := 1) (hl (hv ⟨to_, rfl, hto⟩) (by decide)) hd, h2⟩

/-! ## Cases -/

/-- Options with and without the removal of optional elements, without vocabularies. -/
def oSwitch (b : Bool) : Options := { o0 with updateVocabularies := false, removeOptionals := b }

/-- A 1.0.1 package with a file depth inside a contributor, and a marking; both without content. -/
def docSwitch : Node :=
  stixDoc "1.0.1" [el nsCommon "Contributors" [] [el nsCommon "Identity" [at_ "id" "a"]
      [el "http://cybox.mitre.org/objects#FileObject-2" "Depth"]],
    el "http://data-marking.mitre.org/Marking-1" "Marking" [] [el "http://data-marking.mitre.org/Marking-1" "Controlled_Structure"]]

/-- The hypotheses of both theorems, and what is missing. -/
example : ParsesElements w0 ∧
    (∃ r, update w0 docSwitch none (some "1.1") { o0 with removeOptionals := false } false 0 = .ok r ∧ r.1.doc.elems.map (·.e.tag.name) =
      ["STIX_Package", "Contributing_Sources", "Source", "Identity", "Depth", "Marking", "Controlled_Structure"]) ∧
    (∃ r, update w0 docSwitch none (some "1.1") { o0 with removeOptionals := true } false 0 = .ok r ∧ r.1.doc.elems.map (·.e.tag.name) =
      ["STIX_Package", "Contributing_Sources", "Source", "Identity", "Marking"]) :=
  ⟨(fun _ _ h => by cases h), ok_of_eval (by decide +kernel), ok_of_eval (by decide +kernel)⟩

/-- A 1.1 package with a generic test mechanism that has a text before an empty field. -/
def docSwitchText : Node :=
  stixDoc "1.1" [.elem ⟨⟨some nsIndicator, "Test_Mechanism"⟩, [(some "g", nsGenericTM)],
    [xsiType "g:GenericTestMechanismType"], some "x", none⟩ [el nsGenericTM "Type"]]

/-- C68 fails for texts: with the option the text of an element survives which is lost without it. -/
theorem C68_text_fails :
    (∃ r, update w0 docSwitchText none none (oSwitch false) false 0 = .ok r ∧ r.1.doc.elems.map (·.e.text) = [none, none, none]) ∧
    (∃ r, update w0 docSwitchText none none (oSwitch true) false 0 = .ok r ∧ r.1.doc.elems.map (·.e.text) = [none, some "x"]) :=
  ⟨ok_of_eval (by decide +kernel), ok_of_eval (by decide +kernel)⟩

/-- A 1.1 package with a type whose prefix is not declared. -/
def docSwitchType : Node := stixDoc "1.1" [el nsTTP "TTP" [xsiType "q:T"]]

/-- C68: the hypothesis that both updates succeed cannot be dropped; removal may fail on a type no other pass reads. -/
theorem C68_on_fails :
    (update w0 docSwitchType none (some "1.1.1") (oSwitch false) false 0).isOk = true ∧
    (update w0 docSwitchType none (some "1.1.1") (oSwitch true) false 0).isOk = false := by decide +kernel

/-- A 1.0.1 package with a commented list of contributors inside a file depth. -/
def docSwitchComment : Node :=
  stixDoc "1.0.1" [el "http://cybox.mitre.org/objects#FileObject-2" "Depth" [] [el nsCommon "Contributors" [] [.other "<!---->" none]]]

/-- C68: nor the other way round; an update may succeed only because an element was removed. -/
theorem C68_off_fails :
    (update w0 docSwitchComment none (some "1.1") (oSwitch false) false 0).isOk = false ∧
    (update w0 docSwitchComment none (some "1.1") (oSwitch true) false 0).isOk = true := by decide +kernel

end Ramrod
