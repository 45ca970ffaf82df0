import Verif.Props.Unique
import Verif.Props.Split
/-!
# C74: No two elements of the result have the same id
-/

namespace Ramrod

open Samples

/-! ## Specification -/

/-- The ids of a document, in document order, each as often as it stands there. -/
def idsOf (t : Node) : List String := t.elems.filterMap (fun c => c.e.get? ⟨none, "id"⟩)

/-- Every id stands at an element below the root in one of the namespaces `nss`, or it stands nowhere else in the document. -/
def InSight (nss : List String) (t : Node) : Prop :=
  ∀ c ∈ t.elems, ∀ i, c.e.get? ⟨none, "id"⟩ = some i → HasId nss i c ∨ (idsOf t).count i ≤ 1

/-! ## Helpers -/

variable {Req : Prop}

theorem idsOf_vals (t : Node) : idsOf t = t.vals attrId := vals_filterMap attrId t

theorem same_of_count {t : Node} {i : String} (h : (idsOf t).count i ≤ 1) {c d : Ctx} (hc : c ∈ t.elems) (hd : d ∈ t.elems)
    (ic : c.e.get? attrId = some i) (id : d.e.get? attrId = some i) : c = d := by
  apply Classical.byContradiction
  intro hne
  have key : ∀ l : List Ctx, c ∈ l → d ∈ l → 2 ≤ (l.filterMap (fun c => c.e.get? attrId)).count i := by
    intro l
    have one : ∀ (x : Ctx) (l : List Ctx), x.e.get? attrId = some i → x ∈ l → 1 ≤ (l.filterMap (fun c => c.e.get? attrId)).count i := by
      intro x l hx hm
      exact List.count_pos_iff.2 (List.mem_filterMap.2 ⟨x, hm, hx⟩)
    induction l with
    | nil => intro h; cases h
    | cons a l ih =>
      intro hc hd
      rcases List.mem_cons.1 hc with rfl | hc' <;> rcases List.mem_cons.1 hd with hd' | hd'
      · exact absurd hd'.symm hne
      · rw [List.filterMap_cons, ic]
        have := one d l id hd'
        simp only [List.count_cons_self]
        omega
      · subst hd'
        rw [List.filterMap_cons, id]
        have := one c l ic hc'
        simp only [List.count_cons_self]
        omega
      · have := ih hc' hd'
        rw [List.filterMap_cons]
        split
        · exact this
        · exact Nat.le_trans this (List.count_le_count_cons)
  have := key _ hc hd
  have h' : (t.elems.filterMap (fun c => c.e.get? attrId)).count i ≤ 1 := h
  omega

theorem unique_of_sight {nss : List String} {t : Node} (hs : InSight nss t) (hn : ∀ i, ¬ Shared nss t i) : (t.vals attrId).Nodup := by
  rw [← idsOf_vals]
  refine filterMap_nodup (elems_nodup' t) (fun c hc d hd i ic id => ?_)
  rcases hs c hc i ic with h1 | h1
  · rcases hs d hd i id with h2 | h2
    · apply Classical.byContradiction
      intro hne
      exact hn i ⟨c, hc, d, hd, hne, h1, h2⟩
    · exact same_of_count h2 hc hd ic id
  · exact same_of_count h1 hc hd ic id

theorem check_unshared {w : World} {u : Updater} {rules : List Rule} {ns : List String} {ty : Bool} {V : Node → Prop}
    (hu : StepRules w u rules (some ns) ty V) {o : Options} {t : Node} (h : u.check o t = .ok ()) : ∀ i, ¬ Shared ns t i := by
  have none_left : ∀ g, IdGroups ns t g → g.isEmpty = true → ∀ i, ¬ Shared ns t i := by
    intro g hg he i hs
    obtain ⟨l, hl⟩ := idGroup_exists ns t i
    have := (hg.2 i l).2 ⟨hs, hl⟩
    rw [List.isEmpty_iff.1 he] at this
    cases this
  cases hu with
  | cybox201 =>
    simp only [cybox201, cybox201Check] at h
    split at h
    · cases h
    · split at h
      · cases h
      · split at h
        · next he =>
          simp only [Bool.and_eq_true] at he
          exact none_left _ (idGroups_getDuplicates (nss := known201) (m := Tables.cybox201_nsmap) (fun _ => Iff.rfl) t) he.2
        · cases h
  | stix101 =>
    simp only [stix101, stix101Check] at h
    split at h
    · cases h
    · split at h
      · cases h
      · split at h
        · next he =>
          simp only [Bool.and_eq_true] at he
          exact none_left _ (idGroups_101 t) he.2
        · cases h

/-- The step that looks at ids. -/
theorem check_step {w : World} {u : Updater} {rules : List Rule} {ns : List String} {ty : Bool} {V : Node → Prop}
    (hu : StepRules w u rules (some ns) ty V) {o : Options} {force : Bool} {k k' : Nat} {t : Node} {r : Result}
    (hr : u = stix11 w → Req) (h : stepUpdate u o force k t = .ok (r, k')) (hx : t.All (Orderly Req attrId)) (hs : InSight ns t)
    (hf : force = true → FreshFrom o.newId k t) : r.doc.All (Orderly Req attrId) ∧ (r.doc.vals attrId).Nodup := by
  have fin : ∀ d : Node, d.All (Orderly Req attrId) → (d.vals attrId).Nodup → u.update o d = .ok r.doc →
      r.doc.All (Orderly Req attrId) ∧ (r.doc.vals attrId).Nodup := fun d h1 h2 h3 => by
    have := thins_update (by decide) (stepRules_registered hu) hr h3 h1
    exact ⟨this.1, this.2.nodup h2⟩
  simp only [stepUpdate] at h
  split at h
  · next d hd =>
    simp only [tryUpdate] at hd
    cases h
    split at hd
    · cases hd
    · next hc => exact fin t hx (unique_of_sight hs (check_unshared hu hc)) hd
  · split at h
    · next hfo =>
      simp only [Bool.and_eq_true] at hfo
      have hf := hf hfo.2
      simp only [forceUpdate] at h
      split at h
      · cases h
      · next r1 k1 hc =>
        split at h
        · cases h
        · next d hd =>
          cases h
          obtain ⟨F, l, ν, n, hF, hl, h1, h2, h3, h4, h5, h6, _⟩ := clean_spec hu hc
          have hxF : (t.edit F).All (Orderly Req attrId) := by
            refine all_edit hx (fun c hc x => ?_)
            by_cases hD : DupAt (some ns) t c
            · rw [h1 c hc hD]; exact ⟨once_set_self x.1, x.2⟩
            · rw [h2 c hc hD]; exact x
          have huniq : ∀ c ∈ t.elems, ∀ d ∈ t.elems, ∀ i, (F c).get? attrId = some i → (F d).get? attrId = some i → c = d := by
            intro c hc d hd i ic id
            have new : ∀ x ∈ t.elems, DupAt (some ns) t x → (F x).get? attrId = some i →
                i = o.newId (n x) ((x.e.get? attrId).getD "") ∧ k ≤ n x := by
              intro x hx hD h
              rw [h1 x hx hD, Elem.get?_set, if_pos rfl, (h5 x hx hD).1] at h
              exact ⟨(Option.some.inj h).symm, (h5 x hx hD).2.1⟩
            by_cases hDc : DupAt (some ns) t c <;> by_cases hDd : DupAt (some ns) t d
            · obtain ⟨e1, k1⟩ := new c hc hDc ic
              obtain ⟨e2, k2⟩ := new d hd hDd id
              exact h6 c hc d hd hDc hDd (hf.1 _ _ _ _ k1 k2 (e1.symm.trans e2))
            · obtain ⟨e1, k1⟩ := new c hc hDc ic
              rw [h2 d hd hDd, e1] at id
              exact absurd id (hf.2 d hd _ _ k1)
            · obtain ⟨e1, k1⟩ := new d hd hDd id
              rw [h2 c hc hDc, e1] at ic
              exact absurd ic (hf.2 c hc _ _ k1)
            · rw [h2 c hc hDc] at ic
              rw [h2 d hd hDd] at id
              rcases hs c hc i ic with p | p
              · rcases hs d hd i id with q | q
                · apply Classical.byContradiction
                  intro hne
                  exact hDc ⟨ns, i, rfl, p, c, hc, d, hd, hne, p, q⟩
                · exact same_of_count q hc hd ic id
              · exact same_of_count p hc hd ic id
          have hnd : ((t.edit F).vals attrId).Nodup := by
            rw [← idsOf_vals, idsOf, elems_edit hF, List.filterMap_map]
            exact filterMap_nodup (elems_nodup' t) (fun c hc d hd i ic id => huniq c hc d hd i ic id)
          have hw := thins_without (Req := Req) attrId (fun c => decide (c.pos ∈ l.map (·.pos))) (t.edit F) hxF
          rw [← h3] at hw
          exact fin r1.doc hw.1 (hw.2.nodup hnd) hd
    · cases h

/-- The other steps, once ids are unique. -/
theorem unique_rest {w : World} {reg : List (String × Updater)} (hreg : ∀ v u, assoc reg v = some u → Registered w u ∧ (u = stix11 w → Req))
    {o : Options} {force : Bool} {vs : List String} {acc r : Result} {k k' : Nat} (h : chainLoop reg o force vs acc k = .ok (r, k'))
    (hx : acc.doc.All (Orderly Req attrId)) (hn : (acc.doc.vals attrId).Nodup) : (r.doc.vals attrId).Nodup := by
  rw [chainLoop_acc] at h
  split at h
  · cases h
  · next r1 k1 h1 =>
    cases h
    exact (ids_chain reg hreg o force vs ⟨acc.doc, [], []⟩ k r1 k' h1 hx hn rfl).1.nodup hn

/-! ## Helpers: the first steps -/

/-- Same name and same id. -/
def SameId (e e' : Elem) : Prop := e'.tag = e.tag ∧ e'.get? attrId = e.get? attrId

theorem SameId.comp {a b c : Elem} (h : SameId a b) (h' : SameId b c) : SameId a c := ⟨h'.1.trans h.1, h'.2.trans h.2⟩

theorem sameId_data {L : List QName} (hq : attrId ∉ L) {e e' : Elem} (h : SameData L e e') : SameId e e' := ⟨h.1, get_of_filter hq h.2.2.2⟩

theorem sameId_set {k : QName} (h : k ≠ attrId) (v : String) (e : Elem) : SameId e (e.set k v) := ⟨rfl, by
  show Attrs.get? (Attrs.set e.attrs k v) attrId = _
  rw [attrs_get_set, if_neg h]
  rfl⟩

theorem sameId_list (e : Elem) : SameId e (updateListElem e) := by
  unfold updateListElem
  split
  · exact ⟨rfl, rfl⟩
  · split <;> exact ⟨rfl, rfl⟩

theorem sameId_iter : ∀ (n : Nat) (e : Elem), SameId e (iter updateListElem n e)
  | 0, _ => ⟨rfl, rfl⟩
  | n + 1, e => (sameId_iter n e).comp (sameId_list _)

theorem sameId_comp {a b c : Node} (h : Node.Rel SameId a b) (h' : Node.Rel SameId b c) : Node.Rel SameId a c :=
  Node.Rel.comp (P := SameId) (Q := SameId) (R := SameId) (fun _ _ _ p q => SameId.comp p q) h h'

theorem sameId_rel {P : Elem → Elem → Prop} (hP : ∀ e e', P e e' → SameId e e') {a b : Node} (h : Node.Rel P a b) : Node.Rel SameId a b :=
  rel_mono hP h

theorem sameId_vocabs {b : Bool} {vs : List Vocab} (hv : ∀ v ∈ vs, ∀ p ∈ v.terms, p ∈ correctedTerms) {t t' : Node}
    (h : (if b then updateVocabs vs t else .ok t) = .ok t') : Node.Rel SameId t t' :=
  sameId_rel (fun _ _ x => sameId_data (by decide) x.1) (vocabsIf_rel hv h)

theorem sameId_update20 {m : List (String × String)} {sel : List XAlt} {o : Options} {t t' : Node}
    (h : cybox20Update (cybox20Cls m sel) o t = .ok t') : Node.Rel SameId t t' := by
  simp only [cybox20Update] at h
  rw [updateSchemalocs_eq, cybox20Versions_eq, updateLists_eq] at h
  refine sameId_comp (rel_mapCtx (fun c => sameId_data (L := managedNames) (by decide) (sameData_schemaloc (by decide) _ c)) _ _ _ t)
    (sameId_comp (rel_mapCtx (fun c => ?_) _ _ _ _) (sameId_comp (rel_mapCtx (fun c => ?_) _ _ _ _)
      (sameId_vocabs (by simp only [cybox20Cls]; decide) h)))
  · unfold versionEdit
    split
    · exact ((sameId_set (by decide) _ _).comp (sameId_set (by decide) _ _)).comp (sameId_set (by decide) _ _)
    · exact ⟨rfl, rfl⟩
  · exact sameId_iter _ _

theorem sameId_update10 {o : Options} {t t' : Node} (h : stix10.update o t = .ok t') : Node.Rel SameId t t' := by
  simp only [stix10, stix10Update] at h
  split at h
  · cases h
  · next t1 h1 =>
    rw [updateNamespaces_none (u := stix10Cls) rfl] at h
    exact sameId_comp (sameId_update20 h1) (sameId_comp (sameId_rel (fun _ _ x => sameId_data (by decide) x.1)
      (Node.Rel.comp touched_trans (touched_schemaloc _ _) (touched_versions _ _ _ _))) (sameId_vocabs (by decide) h))

theorem sight_same {ns : List String} {t t' : Node} (h : Node.Rel SameId t t') (hs : InSight ns t) : InSight ns t' := by
  intro c' hc' i hi
  obtain ⟨c, hc, _, ha, hk, _⟩ := rel_elems_anc (fun _ _ x => x.1) h hc'
  rw [idsOf_vals, rel_vals (fun _ _ x => x.2) h, ← idsOf_vals]
  rcases hs c hc i (hk.2.symm.trans hi) with p | p
  · exact Or.inl ⟨by rw [ha]; exact p.1, by rw [hk.1]; exact p.2.1, hi⟩
  · exact Or.inr p

theorem sight_without {ns : List String} {t : Node} (S : Ctx → Bool) (hs : InSight ns t) : InSight ns (t.without S) := by
  intro c' hc' i hi
  have hsub := without_sublist S t
  obtain ⟨c, hc, hk⟩ := List.mem_map.1 (hsub.subset (List.mem_map_of_mem hc'))
  have he : c.e = c'.e := congrArg (·.1) hk
  have ha : c.anc = c'.anc := congrArg (·.2.2) hk
  rcases hs c hc i (by rw [he]; exact hi) with p | p
  · exact Or.inl ⟨ha ▸ p.1, he ▸ p.2.1, hi⟩
  · refine Or.inr (Nat.le_trans ?_ p)
    refine List.Sublist.count_le _ ?_
    rw [idsOf_vals, idsOf_vals]
    exact sub_pruneCtx t

theorem fresh_sub {gen : Nat → String → String} {k : Nat} {t t' : Node} (h : (t'.vals attrId).Sublist (t.vals attrId))
    (hf : FreshFrom gen k t) : FreshFrom gen k t' := by
  refine ⟨hf.1, fun c hc j i hj hi => ?_⟩
  have : gen j i ∈ t'.vals attrId := by
    rw [← idsOf_vals]
    exact List.mem_filterMap.2 ⟨c, hc, hi⟩
  have := h.subset this
  rw [← idsOf_vals] at this
  obtain ⟨d, hd, hdi⟩ := List.mem_filterMap.1 this
  exact hf.2 d hd j i hj hdi

/-- The steps before: what is known of the ids is kept. -/
theorem early_step {w : World} {u : Updater} {ns : List String} {rules : List Rule} {ty : Bool} {V : Node → Prop}
    (hu : StepRules w u rules none ty V) (hk : ∀ o t t', u.update o t = .ok t' → Node.Rel SameId t t') (hr : u = stix11 w → Req)
    {o : Options} {force : Bool} {k k' : Nat} {t : Node} {r : Result}
    (h : stepUpdate u o force k t = .ok (r, k')) (hx : t.All (Orderly Req attrId)) (hs : InSight ns t)
    (hf : force = true → FreshFrom o.newId k t) :
    r.doc.All (Orderly Req attrId) ∧ InSight ns r.doc ∧ (force = true → FreshFrom o.newId k' r.doc) := by
  obtain ⟨r1, h1, _, _, h4⟩ := step_parts h
  have hmid : r1.doc.All (Orderly Req attrId) ∧ InSight ns r1.doc ∧ (force = true → FreshFrom o.newId k' r1.doc) := by
    rcases h4 with ⟨rfl, rfl⟩ | hc
    · exact ⟨hx, hs, hf⟩
    · obtain ⟨F, l, ν, n, hF, hl, _, h2, h3, _⟩ := clean_spec hu hc
      have hno : ∀ c, ¬ DupAt none t c := by rintro c ⟨_, _, h, _⟩; cases h
      rw [edit_self (fun c hc => h2 c hc (hno c))] at h3
      have hkk : k' = k := by
        obtain ⟨dis, hdis, h | ⟨g, hg, _⟩⟩ := clean_cut hc
        · exact h.2.1
        · have : u.duplicates t = none := duplicates_spec hu hdis
          rw [this] at hg
          cases hg
      have hw := thins_without (Req := Req) attrId (fun c => decide (c.pos ∈ l.map (·.pos))) t hx
      rw [h3, hkk]
      exact ⟨hw.1, sight_without _ hs, fun x => fresh_sub hw.2 (hf x)⟩
  have ht := thins_update (by decide) (stepRules_registered hu) hr h1 hmid.1
  exact ⟨ht.1, sight_same (hk _ _ _ h1) hmid.2.1, fun x => fresh_sub ht.2 (hmid.2.2 x)⟩

/-- From the step that looks at ids on. -/
theorem unique_from {w : World} {reg : List (String × Updater)} (hreg : ∀ v u, assoc reg v = some u → Registered w u ∧ (u = stix11 w → Req))
    {v : String} {u : Updater} {rules : List Rule} {ns : List String} {ty : Bool} {V : Node → Prop} (hv : assoc reg v = some u)
    (hu : StepRules w u rules (some ns) ty V) {o : Options} {force : Bool} {vs : List String} {acc r : Result} {k k' : Nat}
    (h : chainLoop reg o force (v :: vs) acc k = .ok (r, k')) (hx : acc.doc.All (Orderly Req attrId)) (hs : InSight ns acc.doc)
    (hf : force = true → FreshFrom o.newId k acc.doc) : (idsOf r.doc).Nodup := by
  simp only [chainLoop, hv] at h
  split at h
  · cases h
  · next r1 k1 h1 =>
    obtain ⟨p, q⟩ := check_step hu (hreg v u hv).2 h1 hx hs hf
    rw [idsOf_vals]
    exact unique_rest hreg h p q

/-- From the step before on. -/
theorem unique_before {w : World} {reg : List (String × Updater)} (hreg : ∀ v u, assoc reg v = some u → Registered w u ∧ (u = stix11 w → Req))
    {v0 : String} {u0 : Updater} {rules0 : List Rule} {ty0 : Bool} {V0 : Node → Prop} (hv0 : assoc reg v0 = some u0)
    (hu0 : StepRules w u0 rules0 none ty0 V0) (hk : ∀ o t t', u0.update o t = .ok t' → Node.Rel SameId t t')
    {v : String} {u : Updater} {rules : List Rule} {ns : List String} {ty : Bool} {V : Node → Prop} (hv : assoc reg v = some u)
    (hu : StepRules w u rules (some ns) ty V) {o : Options} {force : Bool} {vs : List String} {acc r : Result} {k k' : Nat}
    (h : chainLoop reg o force (v0 :: v :: vs) acc k = .ok (r, k')) (hx : acc.doc.All (Orderly Req attrId)) (hs : InSight ns acc.doc)
    (hf : force = true → FreshFrom o.newId k acc.doc) : (idsOf r.doc).Nodup := by
  rw [chainLoop, hv0] at h
  simp only at h
  split at h
  · cases h
  · next r1 k1 h1 =>
    obtain ⟨p, q, f⟩ := early_step hu0 hk (hreg v0 u0 hv0).2 h1 hx hs hf
    exact unique_from hreg hv hu h p q f

theorem slices74 : ∀ g ∈ stixReleases, g ≠ "1.0.1" →
    (stixReleases.idxOf "1.0" < stixReleases.idxOf g → between stixReleases "1.0" g = "1.0" :: "1.0.1" :: between stixReleases "1.1" g) ∧
    (stixReleases.idxOf "1.0.1" < stixReleases.idxOf g → between stixReleases "1.0.1" g = "1.0.1" :: between stixReleases "1.1" g) := by
  decide

theorem target_ne {to_ : Option String} {d g v : String} (hg : inForce to_ (some d) = some g) (hd : d ≠ v) (hto : to_ ≠ some v) : g ≠ v := by
  rintro rfl
  unfold inForce at hg
  split at hg
  · cases hg; exact hd rfl
  · cases hg; exact hd rfl
  · exact hto hg

/-! ## C74 -/

/-- C74: an update of a 1.0 or 1.0.1 package to 1.1 or later, forced or not, gives a document no two elements of which have the same
id. Partial: every id must be unique already or stand below the root in a known namespace; a forced update needs fresh ids; sources
are plain, and no element has two ids. -/
theorem C74_stix_partial (w : World) (e : Elem) (ks : List Node) (from_ to_ : Option String) (o : Options) (force : Bool) (k k' : Nat)
    (r : Result) (s : String) (he : e.tag.name = "STIX_Package") (hs : inForce from_ (e.get? ⟨none, "version"⟩) = some s)
    (hs' : s = "1.0" ∨ s = "1.0.1") (hto : to_ ≠ some "1.0.1")
    (h : update w (.elem e ks) from_ to_ o force k = .ok (r, k'))
    (hsight : InSight known101 (.elem e ks)) (hf : force = true → FreshFrom o.newId k (.elem e ks))
    (ho : ∀ c ∈ (Node.elem e ks).elems, AtMostOnce ⟨none, "id"⟩ c.e.attrs) (hp : SourcesPlain (.elem e ks)) :
    (idsOf r.doc).Nodup := by
  rw [(C01_dispatch w e ks _ to_ o force k).1 he] at h
  obtain ⟨g, hg⟩ := inForce_some to_ "1.2.1"
  obtain ⟨s1, hs1, hold⟩ := stix_ok_range hg h
  have : s1 = s := Option.some.inj (hs1.symm.trans hs)
  subst this
  have hg1 : g ≠ "1.0.1" := target_ne hg (by decide) hto
  rw [stixUpdate_accepted w _ o force k hs1 hg hold] at h
  have hreg : ∀ v u, assoc (stixUpdaters w) v = some u → Registered w u ∧ (u = stix11 w → True) := fun v u h =>
    ⟨registered_stix h, fun _ => trivial⟩
  have hx : (Node.elem e ks).All (Orderly True attrId) := orderly_all ho (fun _ => hp)
  have hidx := (older_iff stix_nodup (older_mem hold).1 (older_mem hold).2).1 hold
  have hsl := slices74 g (older_mem hold).2 hg1
  rcases hs' with rfl | rfl
  · rw [hsl.1 hidx] at h
    exact unique_before hreg (v0 := "1.0") rfl .stix10 (fun _ _ _ => sameId_update10) rfl .stix101 h hx hsight hf
  · rw [hsl.2 hidx] at h
    exact unique_from hreg rfl .stix101 h hx hsight hf

/-- C74 for CybOX documents updated to 2.1, with any texts. -/
theorem C74_cybox_partial (w : World) (e : Elem) (ks : List Node) (from_ to_ : Option String) (o : Options) (force : Bool) (k k' : Nat)
    (r : Result) (he : e.tag.name = "Observables") (hto : to_ ≠ some "2.0.1")
    (h : update w (.elem e ks) from_ to_ o force k = .ok (r, k'))
    (hsight : InSight known201 (.elem e ks)) (hf : force = true → FreshFrom o.newId k (.elem e ks))
    (ho : ∀ c ∈ (Node.elem e ks).elems, AtMostOnce ⟨none, "id"⟩ c.e.attrs) : (idsOf r.doc).Nodup := by
  rw [(C01_dispatch w e ks _ to_ o force k).2.1 he] at h
  obtain ⟨g, hg⟩ := inForce_some to_ "2.1"
  obtain ⟨s, hs, hold⟩ := cybox_ok_range hg h
  have hg1 : g ≠ "2.0.1" := target_ne hg (by decide) hto
  rw [cyboxUpdate_accepted _ o force k hs hg hold] at h
  have hreg : ∀ v u, assoc cyboxUpdaters v = some u → Registered w0 u ∧ (u = stix11 w0 → False) :=
    fun v u hu => ⟨registered_cybox hu, fun e => absurd e (cybox_not_stix11 hu)⟩
  have hx : (Node.elem e ks).All (Orderly False attrId) := orderly_all ho (fun x => x.elim)
  have hidx := (older_iff cybox_nodup (older_mem hold).1 (older_mem hold).2).1 hold
  have hsl : ∀ s ∈ cyboxReleases, ∀ g ∈ cyboxReleases, g ≠ "2.0.1" → cyboxReleases.idxOf s < cyboxReleases.idxOf g →
      (s = "2.0" ∧ between cyboxReleases s g = ["2.0", "2.0.1"]) ∨ (s = "2.0.1" ∧ between cyboxReleases s g = ["2.0.1"]) := by decide
  rcases hsl s (older_mem hold).1 g (older_mem hold).2 hg1 hidx with ⟨_, hb⟩ | ⟨_, hb⟩ <;> rw [hb] at h
  · exact unique_before hreg (v0 := "2.0") rfl .cybox20 (fun _ _ _ => sameId_update20) rfl .cybox201 h hx hsight hf
  · exact unique_from hreg rfl .cybox201 h hx hsight hf

/-! ### Cases that meet the hypotheses -/

theorem sight_of_eval {nss : List String} {t : Node} (h : (t.elems.all fun c => match c.e.get? ⟨none, "id"⟩ with
      | none => true
      | some i => decide (c.anc ≠ [] ∧ ∃ n ∈ nss, c.e.tag.ns = some n) || decide ((idsOf t).count i ≤ 1)) = true) : InSight nss t := by
  intro c hc i hi
  have := List.all_eq_true.1 h c hc
  rw [hi] at this
  simp only [Bool.or_eq_true, decide_eq_true_eq] at this
  rcases this with p | p
  · exact Or.inl ⟨p.1, p.2, hi⟩
  · exact Or.inr p

/-- New ids, longer than any in the samples below. -/
def longIds : Options := { newId := fun n _ => String.ofList (List.replicate (n + 2) 'x') }

theorem longIds_fresh {t : Node} (h : (t.elems.all fun c => match c.e.get? ⟨none, "id"⟩ with
      | none => true
      | some i => decide (i.toList.length ≤ 1)) = true) : FreshFrom longIds.newId 0 t := by
  refine ⟨fun j j' i i' _ _ h => ?_, fun c hc j i _ hi => ?_⟩
  · have := congrArg (fun s => s.toList.length) h
    simpa [longIds] using this
  · have := List.all_eq_true.1 h c hc
    rw [hi] at this
    simp [longIds] at this

/-- A package with an id, two TTPs with another, and a foreign element with a third. -/
def docThree : Node :=
  stixDoc "1.0" [el nsTTP "TTP" [at_ "id" "b"], el nsTTP "TTP" [at_ "id" "b"], el "http://example.com/x" "A" [at_ "id" "c"]]
    [at_ "id" "a"]

example : idsOf docThree = ["a", "b", "b", "c"] ∧ InSight known101 docThree ∧ FreshFrom longIds.newId 0 docThree ∧
    (∀ c ∈ docThree.elems, AtMostOnce ⟨none, "id"⟩ c.e.attrs) ∧ SourcesPlain docThree ∧
    (update w0 docThree none (some "1.1") longIds false 0).isOk = false ∧
    ∃ r, update w0 docThree none (some "1.1") longIds true 0 = .ok r ∧ idsOf r.1.doc = ["a", "xx", "xxx", "c"] :=
  ⟨by decide +kernel, sight_of_eval (by decide +kernel), longIds_fresh (by decide +kernel), by unfold AtMostOnce; decide +kernel,
    by unfold SourcesPlain; decide +kernel, by decide +kernel, ok_of_eval (by decide +kernel)⟩

example : InSight known201 cybox201bad ∧ FreshFrom longIds.newId 0 cybox201bad ∧
    (∀ c ∈ cybox201bad.elems, AtMostOnce ⟨none, "id"⟩ c.e.attrs) ∧ idsOf cybox201bad = ["d", "d"] ∧
    ∃ r, update w0 cybox201bad none none longIds true 0 = .ok r ∧ idsOf r.1.doc = ["xx", "xxx"] :=
  ⟨sight_of_eval (by decide +kernel), longIds_fresh (by decide +kernel), by unfold AtMostOnce; decide +kernel, by decide +kernel,
    ok_of_eval (by decide +kernel)⟩

/-! ### Where it fails -/

/-- A package and a TTP in it with the same id. -/
def docRootId : Node := stixDoc "1.0.1" [el nsTTP "TTP" [at_ "id" "a"]] [at_ "id" "a"]

/-- C74, negation: the step looks for ids below the root only, so that a package with the id of an element in it is accepted, without
force, and keeps both. -/
theorem C74_root_fails : idsOf docRootId = ["a", "a"] ∧ ∃ r, update w0 docRootId none (some "1.1") longIds false 0 = .ok r ∧
    idsOf r.1.doc = ["a", "a"] ∧ r.1.remapped = [] :=
  ⟨by decide +kernel, ok_of_eval (by decide +kernel)⟩

/-- Two elements of a namespace that is not known, with the same id, beside two TTPs with another. -/
def docForeign : Node :=
  stixDoc "1.0.1" [el "http://example.com/x" "A" [at_ "id" "a"], el "http://example.com/x" "A" [at_ "id" "a"],
    el nsTTP "TTP" [at_ "id" "b"], el nsTTP "TTP" [at_ "id" "b"]]

/-- C74, negation: ids of elements in other namespaces are not looked at, though the update is forced and other ids are replaced. -/
theorem C74_foreign_fails : FreshFrom longIds.newId 0 docForeign ∧
    ∃ r, update w0 docForeign none (some "1.1") longIds true 0 = .ok r ∧ idsOf r.1.doc = ["a", "a", "xx", "xxx"] :=
  ⟨longIds_fresh (by decide +kernel), ok_of_eval (by decide +kernel)⟩

/-- C74, negation: a package of 1.1 with two TTPs with the same id. The later steps do not look at ids, forced or not. -/
theorem C74_later_fails (force : Bool) : ∃ r, update w0 (stixDoc "1.1" [el nsTTP "TTP" [at_ "id" "b"], el nsTTP "TTP" [at_ "id" "b"]])
    none none longIds force 0 = .ok r ∧ idsOf r.1.doc = ["b", "b"] := by
  cases force <;> exact ok_of_eval (by decide +kernel)

end Ramrod
