import Verif.Props.Again
import Verif.Props.Clean
import Verif.Props.Unique
/-!
# Repeating an update step with its checks: C59
-/

namespace Ramrod

open Samples

/-! ## Helpers: what the elements below the root hold -/

mutual
theorem held_rel {α : Type} {g : Elem → List α} {P : Elem → Elem → Prop} (hP : ∀ e e', P e e' → (g e').Sublist (g e)) {pos : Pos}
    {env env' : NsMap} {anc anc' : List QName} : ∀ {a b : Node}, Node.Rel P a b →
      (held g (b.walk pos env' anc')).Sublist (held g (a.walk pos env anc))
  | .elem e ks, .elem e' ks', h => by
    simp only [Node.Rel] at h
    simp only [Node.walk, held, List.flatMap_cons]
    exact (hP _ _ h.1).append (held_rels hP h.2)
  | .other _ _, .other _ _, _ => by simp [Node.walk, held]
  | .elem _ _, .other _ _, h => by simp only [Node.Rel] at h
  | .other _ _, .elem _ _, h => by simp only [Node.Rel] at h
theorem held_rels {α : Type} {g : Elem → List α} {P : Elem → Elem → Prop} (hP : ∀ e e', P e e' → (g e').Sublist (g e)) {pos : Pos} {i : Nat}
    {env env' : NsMap} {anc anc' : List QName} : ∀ {a b : List Node}, Node.Rels P a b →
      (held g (Node.walks pos i env' anc' b)).Sublist (held g (Node.walks pos i env anc a))
  | [], [], _ => by simp [Node.walks, held]
  | _ :: _, _ :: _, h => by
    simp only [Node.Rels] at h
    simp only [Node.walks, held, List.flatMap_append]
    exact (held_rel hP h.1).append (held_rels hP h.2)
  | [], _ :: _, h => by simp only [Node.Rels] at h
  | _ :: _, [], h => by simp only [Node.Rels] at h
end

mutual
theorem held_prune {α : Type} {g : Elem → List α} {S : Ctx → Bool} {pos pos' : Pos} {env env' env'' : NsMap} {anc anc' anc'' : List QName} :
    ∀ (t : Node), (held g ((t.pruneCtx S pos env anc).walk pos' env' anc')).Sublist (held g (t.walk pos env'' anc''))
  | .other _ _ => by simp [Node.pruneCtx, Node.walk, held]
  | .elem e ks => by
    simp only [Node.pruneCtx, Node.walk, held, List.flatMap_cons]
    exact (List.Sublist.refl _).append (held_prunes ks)
theorem held_prunes {α : Type} {g : Elem → List α} {S : Ctx → Bool} {pos pos' : Pos} {i i' : Nat} {env env' env'' : NsMap} {anc anc' anc'' : List QName} :
    ∀ (ks : List Node), (held g (Node.walks pos' i' env' anc' (Node.pruneCtxs S pos i env anc ks))).Sublist (held g (Node.walks pos i env'' anc'' ks))
  | [] => by simp [Node.pruneCtxs, Node.walks, held]
  | .other c t :: ks => by
    simp only [Node.pruneCtxs, Node.walks, Node.walk, List.nil_append]
    exact held_prunes ks
  | .elem e es :: ks => by
    simp only [Node.pruneCtxs]
    split
    · simp only [Node.walks]
      unfold held
      rw [List.flatMap_append]
      exact (held_prunes ks).trans (List.sublist_append_right _ _)
    · simp only [Node.walks]
      unfold held
      rw [List.flatMap_append, List.flatMap_append]
      exact (held_prune (.elem e es)).append (held_prunes ks)
end

theorem below_rel {α : Type} {g : Elem → List α} {P : Elem → Elem → Prop} (hP : ∀ e e', P e e' → (g e').Sublist (g e)) {a b : Node}
    (h : Node.Rel P a b) : (held g b.descs).Sublist (held g a.descs) := by
  cases a with
  | other _ _ => cases b with
    | other _ _ => simp [Node.descs, Node.elems, Node.walk, held]
    | elem _ _ => simp only [Node.Rel] at h
  | elem e ks => cases b with
    | other _ _ => simp only [Node.Rel] at h
    | elem e' ks' =>
      rw [descs_elem, descs_elem]
      simp only [Node.Rel] at h
      exact held_rels hP h.2

theorem below_without {α : Type} {g : Elem → List α} (S : Ctx → Bool) (t : Node) : (held g (t.without S).descs).Sublist (held g t.descs) := by
  cases t with
  | other _ _ => simp [Node.without, Node.pruneCtx, Node.descs, Node.elems, Node.walk, held]
  | elem e ks =>
    simp only [Node.without, Node.pruneCtx]
    rw [descs_elem, descs_elem]
    exact held_prunes ks

/-- The id of an element, if it must be unique. -/
def guarded (nss : List String) (e : Elem) : List String := if ∃ n ∈ nss, e.tag.ns = some n then (e.get? attrId).toList else []

theorem mem_guarded {nss : List String} {c : Ctx} {i : String} (hc : c.anc ≠ []) : i ∈ guarded nss c.e ↔ HasId nss i c := by
  unfold guarded HasId
  split
  · next h => simp [h, hc, attrId, QName.plain]
  · next h => simp [h]

theorem flatMap_nodup_of {α β : Type} {f : α → List β} : ∀ {l : List α}, l.Nodup → (∀ c ∈ l, (f c).Nodup) →
    (∀ c ∈ l, ∀ d ∈ l, ∀ i, i ∈ f c → i ∈ f d → c = d) → (l.flatMap f).Nodup
  | [], _, _, _ => by simp
  | a :: l, hn, h1, h2 => by
    rw [List.nodup_cons] at hn
    rw [List.flatMap_cons, List.nodup_append]
    refine ⟨h1 a (by simp), flatMap_nodup_of hn.2 (fun c hc => h1 c (by simp [hc])) (fun c hc d hd => h2 c (by simp [hc]) d (by simp [hd])), ?_⟩
    rintro i hi j hj rfl
    obtain ⟨d, hd, hid⟩ := List.mem_flatMap.1 hj
    exact hn.1 (h2 a (by simp) d (by simp [hd]) i hi hid ▸ hd)

theorem unshared_iff {nss : List String} {t : Node} : (∀ i, ¬ Shared nss t i) ↔ (held (guarded nss) t.descs).Nodup := by
  constructor
  · intro h
    refine flatMap_nodup_of ((List.tail_sublist _).nodup (elems_nodup' t)) (fun c _ => ?_) (fun c hc d hd i h1 h2 => ?_)
    · unfold guarded
      split
      · cases c.e.get? attrId <;> simp
      · simp
    · refine Classical.byContradiction fun hne => h i ⟨c, List.mem_of_mem_tail hc, d, List.mem_of_mem_tail hd, hne, ?_, ?_⟩
      · exact (mem_guarded (descs_anc_ne t hc)).1 h1
      · exact (mem_guarded (descs_anc_ne t hd)).1 h2
  · rintro h i ⟨c, hc, d, hd, hne, h1, h2⟩
    exact hne (flat_apart (i := i) h (mem_descs_iff.2 ⟨hc, h1.1⟩) (mem_descs_iff.2 ⟨hd, h2.1⟩) ((mem_guarded h1.1).2 h1) ((mem_guarded h2.1).2 h2))

/-! ## Helpers: names along the way -/

/-- The same name, or one that the CybOX step gives. -/
def Given (a b : QName) : Prop := b = a ∨ ¬ Fresh201 b

/-- The same for the names of the ancestors. -/
def GivenAll : List QName → List QName → Prop
  | [], [] => True
  | a :: as, b :: bs => Given a b ∧ GivenAll as bs
  | _, _ => False

theorem given_trans {a b c : QName} (h : Given a b) (g : Given b c) : Given a c := by
  rcases g with rfl | g
  · exact h
  · exact Or.inr g

mutual
theorem rel_names {P : Elem → Elem → Prop} (hP : ∀ e e', P e e' → Given e.tag e'.tag) {pos : Pos} {env env' : NsMap} {anc anc' : List QName} :
    ∀ {a b : Node}, GivenAll anc anc' → Node.Rel P a b → ∀ c' ∈ b.walk pos env' anc', ∃ c ∈ a.walk pos env anc,
      Given c.e.tag c'.e.tag ∧ GivenAll c.anc c'.anc
  | .elem e ks, .elem e' ks', ha, h, c', hc => by
    simp only [Node.Rel] at h
    simp only [Node.walk, List.mem_cons] at hc ⊢
    rcases hc with rfl | hc
    · exact ⟨_, Or.inl rfl, hP _ _ h.1, ha⟩
    · obtain ⟨c, g1, g2⟩ := rels_names hP (anc := e.tag :: anc) (anc' := e'.tag :: anc') (env := e.decls ++ env) ⟨hP _ _ h.1, ha⟩ h.2 c' hc
      exact ⟨c, Or.inr g1, g2⟩
  | .other _ _, .other _ _, _, _, c', hc => by simp [Node.walk] at hc
  | .elem _ _, .other _ _, _, h, _, _ => by simp only [Node.Rel] at h
  | .other _ _, .elem _ _, _, h, _, _ => by simp only [Node.Rel] at h
theorem rels_names {P : Elem → Elem → Prop} (hP : ∀ e e', P e e' → Given e.tag e'.tag) {pos : Pos} {i : Nat} {env env' : NsMap} {anc anc' : List QName} :
    ∀ {a b : List Node}, GivenAll anc anc' → Node.Rels P a b → ∀ c' ∈ Node.walks pos i env' anc' b, ∃ c ∈ Node.walks pos i env anc a,
      Given c.e.tag c'.e.tag ∧ GivenAll c.anc c'.anc
  | [], [], _, _, c', hc => by simp [Node.walks] at hc
  | _ :: _, _ :: _, ha, h, c', hc => by
    simp only [Node.Rels] at h
    simp only [Node.walks, List.mem_append] at hc ⊢
    rcases hc with hc | hc
    · obtain ⟨c, g1, g2⟩ := rel_names hP (env := env) ha h.1 c' hc
      exact ⟨c, Or.inl g1, g2⟩
    · obtain ⟨c, g1, g2⟩ := rels_names hP (env := env) ha h.2 c' hc
      exact ⟨c, Or.inr g1, g2⟩
  | [], _ :: _, _, h, _, _ => by simp only [Node.Rels] at h
  | _ :: _, [], _, h, _, _ => by simp only [Node.Rels] at h
end

/-! ## Helpers: the CybOX 2.0.1 step -/

/-- What the stages of the CybOX step do to an element. -/
def Moved (nss : List String) (e e' : Elem) : Prop := Given e.tag e'.tag ∧ (guarded nss e').Sublist (guarded nss e)

theorem moved_trans {nss : List String} {a b c : Elem} (h : Moved nss a b) (g : Moved nss b c) : Moved nss a c := ⟨given_trans h.1 g.1, g.2.trans h.2⟩

theorem rel_moved_trans {nss : List String} {a b c : Node} (h : Node.Rel (Moved nss) a b) (g : Node.Rel (Moved nss) b c) : Node.Rel (Moved nss) a c :=
  Node.Rel.comp (P := Moved nss) (Q := Moved nss) (R := Moved nss) (fun _ _ _ h g => moved_trans h g) h g

theorem moved_data {nss : List String} {L : List QName} (hL : attrId ∉ L) {e e' : Elem} (h : SameData L e e') : Moved nss e e' := by
  refine ⟨Or.inl h.1, ?_⟩
  unfold guarded
  rw [h.1, show e'.get? attrId = e.get? attrId from get_of_filter hL h.2.2.2]
  exact List.Sublist.refl _

theorem moved_ns {nss : List String} (hn : "http://cybox.mitre.org/objects#WinDriverObject-3" ∉ nss) {n : List (String × String)} {sel : List XAlt} (t : Node) :
    Node.Rel (Moved nss) t ((cybox201Cls n sel).updateNamespaces [] t) := by
  rw [updateNamespaces_eq]
  refine rel_mapCtx (fun c => ?_) [] [] [] t
  unfold nsEdit
  split
  · next hu =>
    have hns : ((cybox201Cls n sel).updateNsmapElem c.env c.e c.kids).tag.ns = some "http://cybox.mitre.org/objects#WinDriverObject-3" := by
      simp only [Cls.updateNsmapElem]
      unfold Cls.nsUpdated at hu
      unfold Cls.remappedTag
      cases hq : c.e.tag.ns with
      | none => rw [hq] at hu; cases hu
      | some x =>
        rw [hq] at hu
        simp only [cybox201Cls, Tables.cybox201_updateNsMap, assoc] at hu ⊢
        split at hu
        · next hx => subst hx; simp
        · cases hu
    refine ⟨Or.inr (fun h => h.2 hns), ?_⟩
    unfold guarded
    rw [if_neg]
    · exact List.nil_sublist _
    · rintro ⟨m, hm, he⟩
      rw [hns] at he
      cases he
      exact hn hm
  · exact ⟨Or.inl rfl, List.Sublist.refl _⟩

theorem moved_ren {nss : List String} {f : QName → QName} (hf : ∀ q, f q = q ∨ f q ∈ renamed201.map (·.2)) (hns : ∀ q, (f q).ns = q.ns) (t : Node) :
    Node.Rel (Moved nss) t (t.edit (renBelow f)) := by
  refine rel_mapCtx (fun c => ?_) [] [] [] t
  unfold renBelow
  split
  · exact ⟨Or.inl rfl, List.Sublist.refl _⟩
  · refine ⟨?_, ?_⟩
    · rcases hf c.e.tag with e | e
      · exact Or.inl e
      · exact Or.inr (fun h => h.1 e)
    · unfold guarded
      simp only [hns]
      exact List.Sublist.refl _

/-- The embedded or stand-alone CybOX 2.0.1 updater: small changes, then the empty optional elements. -/
theorem moves201 {nss : List String} (hn : "http://cybox.mitre.org/objects#WinDriverObject-3" ∉ nss) {n : List (String × String)} {sel : List XAlt}
    {o : Options} {t t' : Node} (h : cybox201Update (cybox201Cls n sel) o t = .ok t') (ht : ClearOf rebuilt201 mailslot201 t) :
    ∃ d, Node.Rel (Moved nss) t d ∧ (t' = d ∨ t' = d.without (optSel optional21)) := by
  simp only [cybox201Update] at h
  rw [cybox201Versions_eq] at h
  have m1 := moved_ns hn (n := n) (sel := sel) t
  have k1 : ClearOf rebuilt201 mailslot201 ((cybox201Cls n sel).updateNamespaces [] t) := clear_ns (by decide +kernel) (by decide +kernel) ht
  generalize (cybox201Cls n sel).updateNamespaces [] t = t0 at h m1 k1
  have r1 := rel_stamped_trans (stamped_schemaloc (cybox201Cls n sel) t0)
    (stamped_versions (m := (cybox201Cls n sel).nsmap) (alts := (cybox201Cls n sel).xpathVersioned) stamped_21 _)
  have k2 := clear_rel (fun _ _ h => ⟨h.1.1.1, h.1.1.2.1⟩) r1 k1
  have m2 := rel_moved_trans m1 (rel_mono (Q := Moved nss) (fun _ _ he => moved_data (L := stampNames) (by decide) he.1.1) r1)
  rw [show (cybox201Cls n sel).nsmap = n from rfl, show (cybox201Cls n sel).xpathVersioned = sel from rfl] at h k2 m2
  generalize ((cybox201Cls n sel).updateSchemalocs t0).edit (versionEdit n sel setVersion21) = d at h k2 m2
  split at h
  · cases h
  · next d2 h2 =>
    obtain ⟨⟨f, hf, hfn, rfl⟩, _⟩ := fields201_done h2 k2
    have m3 := rel_moved_trans m2 (moved_ren hf hfn d)
    split at h
    · cases h
    · next d4 h4 =>
      have c4 := carry_same (carry_vocabs (by
        show ∀ v ∈ (cybox201Cls [] []).vocabs, ∀ p ∈ v.terms, p ∈ correctedTerms
        decide) h4)
      refine ⟨d4, rel_moved_trans m3 (rel_mono (fun _ _ he => moved_data (L := vocabNames) (by decide) he) c4), ?_⟩
      cases hb : o.removeOptionals with
      | false => rw [hb] at h; cases h; exact Or.inl rfl
      | true =>
        rw [hb, if_pos rfl, show (cybox201Cls n sel).optionals = cybox201Optionals from rfl, optionals_pass] at h
        cases h
        exact Or.inr rfl

/-- Untranslatable content is not made by removing elements and renaming others. -/
theorem fine201 {nss : List String} {t d t' : Node} (hm : Node.Rel (Moved nss) t d) (hp : Part d t') (hs : NoneNested mailslot201 t')
    (h : ∀ c ∈ t.elems, ¬ Untranslatable rules201 t c) : ∀ c ∈ t'.elems, ¬ Untranslatable rules201 t' c := by
  rintro c' hc' ⟨r, hr, hb⟩
  obtain ⟨b, hb1, hbe, _, hba⟩ := hp c' hc'
  obtain ⟨c, hc, h1, h2⟩ := rel_names (P := Moved nss) (fun _ _ h => h.1) (env := []) (anc := []) (anc' := []) trivial hm b hb1
  rw [← hbe] at h1
  rw [← hba] at h2
  have tag : Fresh201 c'.e.tag → c'.e.tag = c.e.tag := fun hf => h1.resolve_right (fun hn => hn hf)
  have anc : c'.anc ≠ [] → c.anc ≠ [] := by
    intro hn he
    rw [he] at h2
    cases hx : c'.anc with
    | nil => exact hn hx
    | cons _ _ => rw [hx] at h2; simp [GivenAll] at h2
  have hr' := hr
  simp only [rules201, List.mem_cons, List.not_mem_nil, or_false] at hr
  rcases hr with rfl | rfl | rfl | rfl
  · refine h c hc ⟨_, hr', anc hb.1, ?_⟩
    rw [← tag (by rw [hb.2]; decide +kernel)]
    exact hb.2
  · refine h c hc ⟨_, hr', anc hb.1, ?_⟩
    rw [← tag (by rw [hb.2]; decide +kernel)]
    exact hb.2
  · obtain ⟨g1, q, qs, g2⟩ := hb
    refine h c hc ⟨_, hr', ?_, ?_⟩
    · rw [← tag (by rw [g1]; decide +kernel)]
      exact g1
    · rw [g2] at h2
      cases hx : c.anc with
      | nil => rw [hx] at h2; simp [GivenAll] at h2
      | cons a as =>
        rw [hx] at h2
        simp only [GivenAll] at h2
        cases as with
        | nil => simp [GivenAll] at h2
        | cons b bs =>
          rcases h2.1 with e | e
          · exact ⟨b, bs, by rw [e]⟩
          · exact absurd (by decide +kernel) e
  · obtain ⟨⟨_, g1⟩, ⟨e, ks, g2, g3⟩, _⟩ := hb
    obtain ⟨i, hi⟩ := List.getElem?_of_mem g2
    exact hs _ (walk_child t' c' hc' i e ks hi) _ (List.mem_singleton.2 rfl) ⟨g3, by simp only [List.head?_cons, g1]; rfl⟩

theorem unshared_moved {nss : List String} {t d t' : Node} {S : Ctx → Bool} (hm : Node.Rel (Moved nss) t d) (hw : t' = d ∨ t' = d.without S)
    (h : ∀ i, ¬ Shared nss t i) : ∀ i, ¬ Shared nss t' i := by
  rw [unshared_iff] at h ⊢
  have h1 := (below_rel (P := Moved nss) (fun _ _ h => h.2) hm).nodup h
  rcases hw with rfl | rfl
  · exact h1
  · exact (below_without S d).nodup h1

theorem passed {u : Updater} {o : Options} {k k' : Nat} {t : Node} {r : Result} (h : stepUpdate u o false k t = .ok (r, k')) :
    u.check o t = .ok () := by
  simp only [stepUpdate, tryUpdate] at h
  cases hc : u.check o t with
  | error x => rw [hc] at h; simp at h
  | ok _ => rfl

theorem unchecked201 {u : Cls} {o : Options} {t : Node} (h : cybox201Check u o t = .ok ()) :
    cybox201Check u { o with checkVersions := false } t = .ok () := by
  unfold cybox201Check at h ⊢
  cases ho : o.checkVersions with
  | false => rw [ho] at h; exact h
  | true =>
    rw [ho] at h
    simp only [if_true, Bool.false_eq_true, if_false] at h ⊢
    split at h
    · cases h
    · exact h

/-- An accepted document has no untranslatable content and no shared ids; and conversely. -/
theorem check201 {o : Options} {t : Node} : cybox201.check { o with checkVersions := false } t = .ok () ↔
    (∀ c ∈ t.elems, ¬ Untranslatable rules201 t c) ∧ ∀ i, ¬ Shared known201 t i := by
  obtain ⟨l, g, h1, ⟨d, rfl, hd⟩, h3⟩ := check_spec (w := w0) .cybox201 (o := { o with checkVersions := false }) (t := t) (fun h => by cases h)
    (fun h => by cases h)
  have hl : l = [] ↔ ∀ c ∈ t.elems, ¬ Untranslatable rules201 t c := by
    rw [List.eq_nil_iff_forall_not_mem]
    exact ⟨fun h c hc hb => h c ((reportsAll_mem h1 c).2 ⟨hc, hb⟩), fun h c hc => h c ((reportsAll_mem h1 c).1 hc).1 ((reportsAll_mem h1 c).1 hc).2⟩
  have hg : d = [] ↔ ∀ i, ¬ Shared known201 t i := by
    rw [List.eq_nil_iff_forall_not_mem]
    constructor
    · intro h i hs
      obtain ⟨l, hl⟩ : ∃ l, IdGroup known201 t i l :=
        ⟨t.elems.filter (fun c => @decide (HasId known201 i c) (Classical.propDecidable _)), List.filter_sublist, fun c => by simp⟩
      exact h (i, l) ((hd.2 i l).2 ⟨hs, hl⟩)
    · rintro h ⟨i, l⟩ hm
      exact h i ((hd.2 i l).1 hm).1
  rw [h3, ← hl, ← hg]
  cases l <;> cases d <;> simp

/-! ## Helpers: the STIX 1.0 step -/

/-- The same name; and the same type, or another type name with the same prefix. -/
def Kin (e e' : Elem) : Prop := (e'.tag = e.tag ∧ e'.decls = e.decls) ∧ (e'.get? tagXsiType = e.get? tagXsiType ∨
  ∃ p ty ty', ty' ∉ ["CAPEC2.5InstanceType", "MAEC4.0InstanceType"] ∧ (∃ v, e.get? tagXsiType = some v ∧ IsQType v p ty) ∧
    ∃ v, e'.get? tagXsiType = some v ∧ IsQType v p ty')

theorem kin_trans {a b c : Elem} (h : Kin a b) (g : Kin b c) : Kin a c := by
  refine ⟨⟨g.1.1.trans h.1.1, g.1.2.trans h.1.2⟩, ?_⟩
  rcases h.2 with h2 | ⟨p, ty, ty', n1, ⟨v, v1, v2⟩, v', v3, v4⟩
  · rcases g.2 with g2 | g2
    · exact Or.inl (g2.trans h2)
    · rw [h2] at g2; exact Or.inr g2
  · rcases g.2 with g2 | ⟨q, uy, uy', n2, ⟨u, u1, u2⟩, u', u3, u4⟩
    · exact Or.inr ⟨p, ty, ty', n1, ⟨v, v1, v2⟩, v', g2.trans v3, v4⟩
    · rw [v3] at u1
      cases u1
      obtain ⟨rfl, _⟩ := isQType_unique v4 u2
      exact Or.inr ⟨p, ty, uy', n2, ⟨v, v1, v2⟩, u', u3, u4⟩

theorem rel_kin_trans {a b c : Node} (h : Node.Rel Kin a b) (g : Node.Rel Kin b c) : Node.Rel Kin a c :=
  Node.Rel.comp (P := Kin) (Q := Kin) (R := Kin) (fun _ _ _ h g => kin_trans h g) h g

theorem kin_data {L : List QName} (hL : tagXsiType ∉ L) {e e' : Elem} (h : SameData L e e') : Kin e e' :=
  ⟨⟨h.1, h.2.1⟩, Or.inl (get_of_filter hL h.2.2.2)⟩

theorem kin_vocabs {b : Bool} {vs : List Vocab} {rows : List VocabRow} (hm : MatchesAll vs rows) (hs : Stable rows)
    (hn : ∀ row ∈ rows, row.new ∉ ["CAPEC2.5InstanceType", "MAEC4.0InstanceType"]) {t t' : Node}
    (h : (if b then updateVocabs vs t else .ok t) = .ok t') : Node.Rel Kin t t' := by
  cases b with
  | false => cases h; exact rel_refl (fun e => ⟨⟨rfl, rfl⟩, Or.inl rfl⟩) t
  | true =>
    obtain ⟨F, hF, rfl, hspec⟩ := updateVocabs_spec hm hs h
    refine rel_mapCtx_mem [] [] [] t (fun c hc => ⟨hF c, ?_⟩)
    rcases Classical.em (∃ row ∈ rows, ∃ p, Outdated row p c) with ⟨row, hr, p, ho⟩ | hno
    · have hw := (hspec c hc).1 row hr p ho
      obtain ⟨_, ty, _, s, hs1, hs2, _⟩ := ho
      refine Or.inr ⟨p, ty, row.new, hn row hr, ⟨s, hs1, hs2⟩, p ++ ":" ++ row.new, ?_, rfl, hs2.2.1, (stable_new hs row hr).1⟩
      have := hw.2.2.2.2.2 tagXsiType
      rwa [if_pos (show tagXsiType = ⟨some "http://www.w3.org/2001/XMLSchema-instance", "type"⟩ from rfl)] at this
    · rw [(hspec c hc).2 (fun row hr p ho => hno ⟨row, hr, p, ho⟩)]
      exact Or.inl rfl

theorem kin_schemaloc (u : Cls) (t : Node) : Node.Rel Kin t (u.updateSchemalocs t) :=
  rel_mono (fun _ _ he => kin_data (L := stampNames) (by decide) he.1.1) (stamped_schemaloc u t)

theorem kin_stix10 {o : Options} {t t' : Node} (h : stix10.update o t = .ok t') : Node.Rel Kin t t' := by
  simp only [stix10, stix10Update, cybox20Update] at h
  split at h
  · cases h
  · next t1 h1 =>
    rw [updateNamespaces_none (u := stix10Cls) rfl, stixVersions_eq] at h
    rw [cybox20Versions_eq, updateLists_eq] at h1
    have r1 : Node.Rel Kin t _ := rel_mono (fun _ _ he => kin_data (L := stampNames) (by decide) he.1.1)
      (rel_stamped_trans (stamped_schemaloc stix10Cybox t)
        (stamped_versions (m := stix10Cybox.nsmap) (alts := stix10Cybox.xpathVersioned) stamped_201 _))
    have r2 := rel_kin_trans r1 (rel_mono (fun _ _ he => kin_data (L := []) (by simp) he) (same_lists stix10Cybox.nsmap _))
    have r3 := rel_kin_trans r2 (kin_vocabs (stepRows_matches (w := w0) .cybox20) (stepRows_stable (w := w0) .cybox20) (by decide) h1)
    have r4 := rel_kin_trans r3 (rel_mono (fun _ _ he => kin_data (L := stampNames) (by decide) he.1.1)
      (rel_stamped_trans (stamped_schemaloc stix10Cls t1)
        (stamped_versions (m := stix10Cls.nsmap) (alts := stix10Cls.xpathVersioned) (stamped_stix "2.0.1" "1.0.1") _)))
    exact rel_kin_trans r4 (kin_vocabs (stepRows_matches (w := w0) .stix10) (stepRows_stable (w := w0) .stix10) (by decide) h)

theorem rels_index {P : Elem → Elem → Prop} : ∀ {a b : List Node}, Node.Rels P a b → ∀ e ks, Node.elem e ks ∈ a →
    ∃ e' ks', Node.elem e' ks' ∈ b ∧ P e e'
  | [], [], _, _, _, h => by cases h
  | x :: xs, y :: ys, hr, e, ks, h => by
    simp only [Node.Rels] at hr
    rcases List.mem_cons.1 h with rfl | h
    · cases y with
      | other _ _ => simp only [Node.Rel] at hr; exact hr.1.elim
      | elem e' ks' =>
        simp only [Node.Rel] at hr
        exact ⟨e', ks', by simp, hr.1.1⟩
    · obtain ⟨e', ks', h1, h2⟩ := rels_index hr.2 e ks h
      exact ⟨e', ks', by simp [h1], h2⟩
  | [], _ :: _, h, _, _, _ => by simp only [Node.Rels] at h
  | _ :: _, [], h, _, _, _ => by simp only [Node.Rels] at h

/-- A document that the step accepts has proper types. -/
theorem typed_10 {t : Node} {l : List Ctx} (h : findAll stix10Disallowed t = .ok l) : WellTyped t := by
  intro c hc ha hx
  simp only [stix10Disallowed, findAll] at h
  split at h
  · cases h
  · next l1 h1 =>
    simp only [Finder.find] at h1
    split at h1
    · cases h1
    · next cs hcs =>
      simp only [Finder.contexts, disallowedType, List.isEmpty_cons, Bool.false_eq_true, if_false] at hcs
      obtain ⟨b, hb⟩ := (filterE_filter hcs).1 c (List.mem_filter.2 ⟨mem_descs_iff.2 ⟨hc, ha⟩, by
        rw [Elem.has_eq]
        cases hh : c.e.get? tagXsiType with
        | none => exact absurd hh hx
        | some _ => rfl⟩)
      simp only [Finder.isContext] at hb
      split at hb
      · cases hb
      · next al ty hi =>
        split at hb
        · cases hb
        · next ns hns =>
          obtain ⟨v, hv, hq⟩ := getTypeInfo_ok.1 hi
          exact ⟨al, ty, ns, v, hv, hq, (getExtNamespace_ok hv hq).1 hns⟩

theorem typed_kin {t t' : Node} (hr : Node.Rel Kin t t') (h : WellTyped t) : WellTyped t' := by
  intro c' hc' ha hx
  obtain ⟨c, hc, hv, hn, he, _⟩ := rel_walk_env (P := Kin) (fun _ _ h => h.1) hr c' hc'
  rcases he.2 with h2 | ⟨p, ty, ty', _, ⟨v, v1, v2⟩, v', v3, v4⟩
  · obtain ⟨p, ty, ns, hty⟩ := h c hc (by rw [← hn]; exact ha) (fun e => hx (h2.trans e))
    exact ⟨p, ty, ns, (typedAs_congr hv h2).2 hty⟩
  · obtain ⟨q, uy, ns, u, u1, u2, u3⟩ := h c hc (by rw [← hn]; exact ha) (fun e => by
      rw [show c.e.get? tagXsiType = none from e] at v1; cases v1)
    rw [show c.e.get? tagXsiType = some u from u1] at v1
    cases v1
    obtain ⟨rfl, _⟩ := isQType_unique u2 v2
    exact ⟨q, ty', ns, v', v3, v4, by rw [hv]; exact u3⟩

theorem prefixOf_qtype {v p ty q : String} (h : IsQType v p ty) (hq : PrefixOf v q) : q = p := by
  have h1 := pySplit_prefix.2 hq
  rw [pySplit_eq h] at h1
  exact h1.symm

/-- Untranslatable content is not made by the changes of the STIX 1.0 step. -/
theorem fine_kin {t t' : Node} (hr : Node.Rel Kin t t') (h : ∀ c ∈ t.elems, ¬ Untranslatable rules10 t c) :
    ∀ c ∈ t'.elems, ¬ Untranslatable rules10 t' c := by
  rintro c' hc' ⟨r, hm, hb⟩
  obtain ⟨c, hc, hv, hn, he, hk⟩ := rel_walk_env (P := Kin) (fun _ _ h => h.1) hr c' hc'
  have type : ∀ ty ns, ty ∈ ["CAPEC2.5InstanceType", "MAEC4.0InstanceType"] → (typeRule ty ns).Bad t' c' → (typeRule ty ns).Bad t c := by
    rintro ty ns hty ⟨b1, p, v, b2, b3, b4⟩
    rcases he.2 with h2 | ⟨q, uy, uy', hu, _, u, u1, u2⟩
    · exact ⟨by rw [← hn]; exact b1, p, v, h2.symm.trans b2, b3, by rw [← hv]; exact b4⟩
    · rw [show c'.e.get? tagXsiType = some v from b2] at u1
      cases u1
      obtain ⟨_, rfl⟩ := isQType_unique b3 u2
      exact absurd hty hu
  have wrap : ∀ name ns, (wrapRule name ns).Bad t' c' → (wrapRule name ns).Bad t c := by
    rintro name ns ⟨⟨b1, b2⟩, b3⟩
    refine ⟨⟨by rw [← hn]; exact b1, he.1.1.symm.trans b2⟩, fun e ks hk1 => ?_⟩
    obtain ⟨e', ks', hk2, hp⟩ := rels_index hk e ks hk1
    obtain ⟨v, p, d1, d2, d3⟩ := b3 e' ks' hk2
    rw [hp.1.2, hv] at d3
    rcases hp.2 with h2 | ⟨q, uy, uy', _, ⟨u, u1, u2⟩, u', u3, u4⟩
    · exact ⟨v, p, h2.symm.trans d1, d2, d3⟩
    · rw [show e'.get? tagXsiType = some v from d1] at u3
      cases u3
      obtain rfl := prefixOf_qtype u4 d2
      exact ⟨u, p, u1, ⟨u2.2.1, Or.inr ⟨uy, u2.1⟩⟩, d3⟩
  have hm' := hm
  simp only [rules10, List.mem_cons, List.not_mem_nil, or_false] at hm
  rcases hm with rfl | rfl | rfl | rfl
  · exact h c hc ⟨_, hm', type _ _ (by simp) hb⟩
  · exact h c hc ⟨_, hm', type _ _ (by simp) hb⟩
  · exact h c hc ⟨_, hm', wrap _ _ hb⟩
  · exact h c hc ⟨_, hm', wrap _ _ hb⟩

theorem unchecked10 {o : Options} {t : Node} (h : stix10.check o t = .ok ()) : stix10.check { o with checkVersions := false } t = .ok () := by
  simp only [stix10, stix10Check] at h ⊢
  simp only [Bool.false_eq_true, if_false]
  split at h
  · cases h
  · exact h

theorem check10 {o : Options} {t : Node} : stix10.check { o with checkVersions := false } t = .ok () ↔
    WellTyped t ∧ ∀ c ∈ t.elems, ¬ Untranslatable rules10 t c := by
  have key : WellTyped t → (stix10.check { o with checkVersions := false } t = .ok () ↔ ∀ c ∈ t.elems, ¬ Untranslatable rules10 t c) := by
    intro ht
    obtain ⟨l, g, h1, h2, h3⟩ := check_spec (w := w0) .stix10 (o := { o with checkVersions := false }) (t := t) (fun _ => ht) (fun h => by cases h)
    cases h2
    have hl : l = [] ↔ ∀ c ∈ t.elems, ¬ Untranslatable rules10 t c := by
      rw [List.eq_nil_iff_forall_not_mem]
      exact ⟨fun h c hc hb => h c ((reportsAll_mem h1 c).2 ⟨hc, hb⟩), fun h c hc => h c ((reportsAll_mem h1 c).1 hc).1 ((reportsAll_mem h1 c).1 hc).2⟩
    rw [h3, ← hl]
    cases l <;> simp
  constructor
  · intro h
    have ht : WellTyped t := by
      have h' := h
      simp only [stix10, stix10Check, stix10GetDisallowed, Bool.false_eq_true, if_false] at h'
      split at h'
      · cases h'
      · next l hl => exact typed_10 hl
    exact ⟨ht, (key ht).1 h⟩
  · exact fun h => (key h.1).2 h.2

/-! ## C59 -/

/-- C59 for the CybOX 2.0.1 step, for documents without the fields that the step builds anew: the second run, without the
version check, accepts the document and changes nothing.
Partial: the second run stops at a `DNT` or `Vary` field (`C59_headers_fails`); the two other fields are left out. -/
theorem C59_cybox201_step_partial (o : Options) (force' : Bool) (k k' j : Nat) (t : Node) (r : Result)
    (h1 : NoneNamed [objName "HTTPSession" "DNT", objName "HTTPSession" "Vary", objName "HTTPSession" "Refresh"] t)
    (h2 : NoneNested [(objName "WinMailslot" "Handle", objName "WinHandle" "Handle")] t)
    (h : stepUpdate cybox201 o false k t = .ok (r, k')) :
    stepUpdate cybox201 { o with checkVersions := false } force' j r.doc = .ok (⟨r.doc, [], []⟩, j) := by
  have ht : ClearOf rebuilt201 mailslot201 t := ⟨h1, h2⟩
  have hu := tried h
  obtain ⟨g1, g2⟩ := check201.1 (show cybox201.check { o with checkVersions := false } t = .ok () from unchecked201 (passed h))
  obtain ⟨d, hm, hw⟩ := moves201 (nss := known201) (by decide +kernel) (n := Tables.cybox201_nsmap) (sel := xpathObservables) hu ht
  obtain ⟨_, _, l3, _⟩ := left201 (n := Tables.cybox201_nsmap) (sel := xpathObservables) (by decide) (by decide) (by decide +kernel) hu ht
  have hp : Part d r.doc := by
    rcases hw with e | e
    · rw [e]; exact fun c hc => ⟨c, hc, rfl, rfl, rfl⟩
    · rw [e]
      intro c hc
      obtain ⟨b, hb, e1, e2, e3, _⟩ := mem_without hc
      exact ⟨b, hb, e1, e2, e3⟩
  refine retried ?_ (show cybox201.update o r.doc = .ok r.doc from again_cybox201 hu ht)
  exact check201.2 ⟨fine201 hm hp l3.2 g1, unshared_moved hm hw g2⟩

example : (NoneNamed [objName "HTTPSession" "DNT", objName "HTTPSession" "Vary", objName "HTTPSession" "Refresh"] docSpelling ∧
    NoneNested [(objName "WinMailslot" "Handle", objName "WinHandle" "Handle")] docSpelling) ∧
    ∃ r, stepUpdate cybox201 o0 false 0 docSpelling = .ok r ∧
      r.1.doc.elems.map (·.e.tag.name) = ["Observables", "Authentication_Data", "A"] :=
  ⟨⟨by unfold NoneNamed; decide +kernel, by unfold NoneNested; decide +kernel⟩, ok_of_eval (by decide +kernel)⟩

/-- C59 for the STIX 1.0 step, for documents without escaped commas in CybOX values: the second run, without the version check,
accepts the document and changes nothing.
Partial: as for CybOX 2.0 (`C59_lists_fails`). -/
theorem C59_stix10_step_partial (o : Options) (force' : Bool) (k k' j : Nat) (t : Node) (r : Result) (ht : NoEscapes t)
    (h : stepUpdate stix10 o false k t = .ok (r, k')) :
    stepUpdate stix10 { o with checkVersions := false } force' j r.doc = .ok (⟨r.doc, [], []⟩, j) := by
  have hu := tried h
  obtain ⟨g1, g2⟩ := check10.1 (unchecked10 (passed h))
  have hk := kin_stix10 hu
  exact retried (check10.2 ⟨typed_kin hk g1, fine_kin hk g2⟩) (show stix10.update o r.doc = .ok r.doc from again_stix10 hu ht)

example : NoEscapes docEvent ∧ ∃ r, stepUpdate stix10 o0 false 0 docEvent = .ok r ∧ r.1.doc ≠ docEvent := by
  refine ⟨fun c hc _ s hs hi => ?_, ok_of_eval (by decide +kernel)⟩
  have h0 : ∀ c ∈ docEvent.elems, ∀ s, c.e.text = some s → '&' ∉ s.toList := by decide +kernel
  exact h0 c hc s hs (hi.subset (by decide))

/-- A mailslot handle with a handle in a handle. -/
def docHandles : Node := cyboxDoc v201 [.elem ⟨objName "WinMailslot" "Handle", [], [], none, none⟩
  [.elem ⟨objName "WinHandle" "Handle", [], [], none, none⟩ [.elem ⟨objName "WinHandle" "Handle", [], [], some "x", none⟩ []]]]

/-- C59 fails for a handle within the handle of a mailslot: each run takes one handle away. -/
theorem C59_handles_fails : ∃ r r', stepUpdate cybox201 o0 false 0 docHandles = .ok r ∧
    stepUpdate cybox201 { o0 with checkVersions := false } false 0 r.1.doc = .ok r' ∧
    (r.1.doc.elems.map (fun c => (c.e.tag.name, c.e.text)) = [("Observables", none), ("Handle", none), ("Handle", some "x")] ∧
      r'.1.doc.elems.map (fun c => (c.e.tag.name, c.e.text)) = [("Observables", none), ("Handle", some "x")]) := by
  refine twice_of_eval (P := fun r r' => r.doc.elems.map (fun c => (c.e.tag.name, c.e.text)) = [("Observables", none), ("Handle", none), ("Handle", some "x")] ∧
      r'.doc.elems.map (fun c => (c.e.tag.name, c.e.text)) = [("Observables", none), ("Handle", some "x")]) ?_
  decide +kernel

/-- Contributors of a contributor. -/
def docOuterContributors : Node :=
  stixDoc "1.0.1" [el nsCommon "Contributors" [] [el nsCommon "Contributor" [] [el nsCommon "Contributors" [] [el nsCommon "Contributor" [] [] (some "x")]]]]

/-- C59 fails for contributors within a contributor: the first run renames the outer ones only, the second the inner ones. -/
theorem C59_contributors_fails : ∃ r r', stepUpdate (stix101 w0) o0 false 0 docOuterContributors = .ok r ∧
    stepUpdate (stix101 w0) { o0 with checkVersions := false } false 0 r.1.doc = .ok r' ∧
    (r.1.doc.elems.map (·.e.tag.name) = ["STIX_Package", "Contributing_Sources", "Source", "Identity", "Contributors", "Contributor"] ∧
      r'.1.doc.elems.map (·.e.tag.name) =
        ["STIX_Package", "Contributing_Sources", "Source", "Identity", "Contributing_Sources", "Source", "Identity"]) := by
  refine twice_of_eval (P := fun r r' => r.doc.elems.map (·.e.tag.name) = ["STIX_Package", "Contributing_Sources", "Source", "Identity", "Contributors", "Contributor"] ∧
      r'.doc.elems.map (·.e.tag.name) =
        ["STIX_Package", "Contributing_Sources", "Source", "Identity", "Contributing_Sources", "Source", "Identity"]) ?_
  decide +kernel

/-- Exploit targets of an exploit target. -/
def docOuterTargets : Node :=
  stixDoc "1.0.1" [el nsTTP "Exploit_Targets" [] [el nsCommon "Exploit_Target" [] [el nsTTP "Exploit_Targets" [] [el nsCommon "Exploit_Target" [] []]]]]

/-- C59 fails for exploit targets within an exploit target: the first run wraps the outer one only, the second the inner one. -/
theorem C59_targets_fails : ∃ r r', stepUpdate (stix101 w0) o0 false 0 docOuterTargets = .ok r ∧
    stepUpdate (stix101 w0) { o0 with checkVersions := false } false 0 r.1.doc = .ok r' ∧
    (r.1.doc.elems.map (·.e.tag.ns) = [some nsStix, some nsTTP, some nsTTP, some nsCommon, some nsTTP, some nsCommon] ∧
      r'.1.doc.elems.map (·.e.tag.ns) = [some nsStix, some nsTTP, some nsTTP, some nsCommon, some nsTTP, some nsTTP, some nsCommon]) := by
  refine twice_of_eval (P := fun r r' => r.doc.elems.map (·.e.tag.ns) = [some nsStix, some nsTTP, some nsTTP, some nsCommon, some nsTTP, some nsCommon] ∧
      r'.doc.elems.map (·.e.tag.ns) = [some nsStix, some nsTTP, some nsTTP, some nsCommon, some nsTTP, some nsTTP, some nsCommon]) ?_
  decide +kernel

/-- A malware description with nothing but an empty marking structure. -/
def docEmptied : Node :=
  stixDoc "1.0.1" [el nsTTP "Malware" [] [el "http://data-marking.mitre.org/Marking-1" "Marking_Structure" [] []]]

/-- C59 fails for a `ttp:Malware` that the first run leaves without child elements: the second run refuses it as a MAEC description. -/
theorem C59_emptied_fails : ∃ r, stepUpdate (stix101 w0) o0 false 0 docEmptied = .ok r ∧
    (match stepUpdate (stix101 w0) { o0 with checkVersions := false } false 0 r.1.doc with
      | .error (.update (some l) (some [])) => decide (l.map (·.e.tag.name) = ["Malware"])
      | _ => false) = true := ok_of_eval (by decide +kernel)

end Ramrod
