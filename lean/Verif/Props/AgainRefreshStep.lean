import Verif.Props.AgainMore
import Verif.Props.AgainRefresh
import Verif.Props.Ids
/-!
# C59: Repeating the CybOX 2.0.1 step, with its checks, on `Refresh` fields
-/

namespace Ramrod

open Samples

/-! ## Helpers: where elements and ids come from -/

/-- Every element of `t'` is one of `t`, perhaps under a name that the CybOX step gives; and `t'` has no further ids. -/
def CameFrom (nss : List String) (t t' : Node) : Prop :=
  (∀ c' ∈ t'.elems, ∃ c ∈ t.elems, Given c.e.tag c'.e.tag ∧ GivenAll c.anc c'.anc) ∧
    (held (guarded nss) t'.descs).Sublist (held (guarded nss) t.descs)

theorem givenAll_trans : ∀ {a b c : List QName}, GivenAll a b → GivenAll b c → GivenAll a c
  | [], [], [], _, _ => trivial
  | _ :: _, _ :: _, _ :: _, h, g => ⟨given_trans h.1 g.1, givenAll_trans h.2 g.2⟩
  | [], _ :: _, _, h, _ => h.elim
  | _ :: _, [], _, h, _ => h.elim
  | [], [], _ :: _, _, g => g.elim
  | _ :: _, _ :: _, [], _, g => g.elim

theorem givenAll_refl : ∀ l : List QName, GivenAll l l
  | [] => trivial
  | _ :: l => ⟨Or.inl rfl, givenAll_refl l⟩

theorem came_trans {nss : List String} {a b c : Node} (h : CameFrom nss a b) (g : CameFrom nss b c) : CameFrom nss a c := by
  refine ⟨fun x hx => ?_, g.2.trans h.2⟩
  obtain ⟨y, hy, y1, y2⟩ := g.1 x hx
  obtain ⟨z, hz, z1, z2⟩ := h.1 y hy
  exact ⟨z, hz, given_trans z1 y1, givenAll_trans z2 y2⟩

theorem came_moved {nss : List String} {a b : Node} (h : Node.Rel (Moved nss) a b) : CameFrom nss a b :=
  ⟨rel_names (P := Moved nss) (fun _ _ h => h.1) (env := []) (anc := []) (anc' := []) trivial h, below_rel (P := Moved nss) (fun _ _ h => h.2) h⟩

theorem came_without {nss : List String} (S : Ctx → Bool) (t : Node) : CameFrom nss t (t.without S) := by
  refine ⟨fun c hc => ?_, below_without S t⟩
  obtain ⟨b, hb, e1, _, e3, _⟩ := mem_without hc
  exact ⟨b, hb, Or.inl (by rw [e1]), by rw [e3]; exact givenAll_refl _⟩

mutual
theorem held_subst {α : Type} {g : Elem → List α} {R : Ctx → Option Node} {pos pos' : Pos} {env env' : NsMap} {anc anc' : List QName} :
    ∀ (t : Node), (∀ c ∈ t.walk pos env anc, ∀ n, R c = some n → ∀ p e a, (held g (n.walk p e a)).Sublist (g c.e)) →
      (held g ((t.substCtx R pos env anc).walk pos' env' anc')).Sublist (held g (t.walk pos env anc))
  | .other _ _, _ => by simp [Node.substCtx, Node.walk, held]
  | .elem e ks, h => by
    simp only [Node.substCtx]
    split
    · next n hn =>
      refine (h _ (by simp [Node.walk]) n hn _ _ _).trans ?_
      simp only [Node.walk, held, List.flatMap_cons]
      exact List.sublist_append_left _ _
    · simp only [Node.walk, held, List.flatMap_cons]
      exact (List.Sublist.refl _).append (held_substs ks (fun c hc => h c (by simp [Node.walk, hc])))
theorem held_substs {α : Type} {g : Elem → List α} {R : Ctx → Option Node} {pos pos' : Pos} {i i' : Nat} {env env' : NsMap} {anc anc' : List QName} :
    ∀ (ks : List Node), (∀ c ∈ Node.walks pos i env anc ks, ∀ n, R c = some n → ∀ p e a, (held g (n.walk p e a)).Sublist (g c.e)) →
      (held g (Node.walks pos' i' env' anc' (Node.substCtxs R pos i env anc ks))).Sublist (held g (Node.walks pos i env anc ks))
  | [], _ => by simp [Node.substCtxs, Node.walks, held]
  | k :: ks, h => by
    simp only [Node.substCtxs, Node.walks]
    unfold held
    rw [List.flatMap_append, List.flatMap_append]
    exact (held_subst k (fun c hc => h c (by simp [Node.walks, hc]))).append (held_substs ks (fun c hc => h c (by simp [Node.walks, hc])))
end

/-- A `Refresh` field has one id at most. -/
def OneRefreshId (e : Elem) : Prop := e.tag = objName "HTTPSession" "Refresh" → AtMostOnce attrId e.attrs

theorem refreshed_id {e : Elem} (h : AtMostOnce attrId e.attrs) : Attrs.get? (refreshedAttrs e) attrId = e.get? attrId := by
  have h0 : Attrs.get? (Attrs.updateAll [] e.attrs) attrId = e.get? attrId := by
    rw [get_updateAll_once h]
    show (Attrs.get? e.attrs attrId).or none = Attrs.get? e.attrs attrId
    cases Attrs.get? e.attrs attrId <;> rfl
  unfold refreshedAttrs
  simp only [overrideAttrs]
  split
  · rw [attrs_get_set, if_neg (by decide)]; exact h0
  · exact h0

theorem came_refresh {nss : List String} {t : Node} (h : ∀ c ∈ t.elems, OneRefreshId c.e) : CameFrom nss t (t.replaceBy refreshField) := by
  refine ⟨fun c' hc' => ?_, ?_⟩
  · obtain ⟨c, hc, h1, h2, _⟩ := refresh_mem hc'
    exact ⟨c, hc, Or.inl h2, by rw [h1]; exact givenAll_refl _⟩
  · cases t with
    | other _ _ => simp [Node.replaceBy, Node.substCtx, Node.descs, Node.elems, Node.walk, held]
    | elem e ks =>
      have hr : (Node.elem e ks).replaceBy refreshField = .elem e (Node.substCtxs (fun c => if c.anc.isEmpty then none else refreshField c) [] 0
          (e.decls ++ []) (e.tag :: []) ks) := by
        simp [Node.replaceBy, Node.substCtx]
      rw [hr, descs_elem, descs_elem]
      refine held_substs ks (fun c hc n hn p env a => ?_)
      split at hn
      · cases hn
      · unfold refreshField at hn
        split at hn
        · next hs =>
          cases hn
          have hc' : c ∈ (Node.elem e ks).elems := by
            simp only [Node.elems, Node.walk, List.mem_cons]
            exact Or.inr hc
          have := refreshed_id (h c hc' (refresh_selects.1 hs).2)
          simp only [newElem, Node.walk, Node.walks, held, List.flatMap_cons, List.flatMap_nil, List.append_nil]
          unfold guarded
          rw [show Elem.get? ⟨c.e.tag, [], refreshedAttrs c.e, c.e.text, none⟩ attrId = c.e.get? attrId from this]
          exact List.Sublist.refl _
        · cases hn

/-! ## Helpers: the CybOX 2.0.1 step -/

theorem one_ns {n : List (String × String)} {sel : List XAlt} {t : Node} (h : ∀ c ∈ t.elems, OneRefreshId c.e) :
    ∀ c ∈ ((cybox201Cls n sel).updateNamespaces [] t).elems, OneRefreshId c.e := by
  rw [updateNamespaces_eq]
  intro c' hc' ht
  obtain ⟨c, hc, _, he, _⟩ := mem_edit hc'
  rw [he] at ht ⊢
  unfold nsEdit at ht ⊢
  split
  · next hu =>
    rw [if_pos hu] at ht
    simp only [Cls.updateNsmapElem] at ht
    unfold Cls.nsUpdated at hu
    unfold Cls.remappedTag at ht
    cases hq : c.e.tag.ns with
    | none => rw [hq] at hu; cases hu
    | some x =>
      rw [hq] at hu ht
      simp only [cybox201Cls, Tables.cybox201_updateNsMap, assoc] at hu ht
      split at hu
      · next hx =>
        subst hx
        have := congrArg QName.ns ht
        simp [objName] at this
      · cases hu
  · next hu =>
    rw [if_neg hu] at ht
    exact h c hc ht

/-- The embedded or stand-alone CybOX 2.0.1 updater: where the elements come from. -/
theorem came201 {nss : List String} (hn : "http://cybox.mitre.org/objects#WinDriverObject-3" ∉ nss) {n : List (String × String)} {sel : List XAlt}
    {o : Options} {t t' : Node} (h : cybox201Update (cybox201Cls n sel) o t = .ok t') (ht : ClearOf unwrapped201 mailslot201 t)
    (h1 : ∀ c ∈ t.elems, OneRefreshId c.e) : CameFrom nss t t' := by
  simp only [cybox201Update] at h
  rw [cybox201Versions_eq] at h
  have m1 := moved_ns hn (n := n) (sel := sel) t
  have k1 : ClearOf unwrapped201 mailslot201 ((cybox201Cls n sel).updateNamespaces [] t) := clear_ns (by decide +kernel) (by decide +kernel) ht
  have o1 := one_ns (n := n) (sel := sel) h1
  generalize (cybox201Cls n sel).updateNamespaces [] t = t0 at h m1 k1 o1
  have r1 := rel_stamped_trans (stamped_schemaloc (cybox201Cls n sel) t0)
    (stamped_versions (m := (cybox201Cls n sel).nsmap) (alts := (cybox201Cls n sel).xpathVersioned) stamped_21 _)
  have k2 := clear_rel (fun _ _ h => ⟨h.1.1.1, h.1.1.2.1⟩) r1 k1
  have m2 := rel_moved_trans m1 (rel_mono (Q := Moved nss) (fun _ _ he => moved_data (L := stampNames) (by decide) he.1.1) r1)
  have r2 := rel_mono (Q := SameData stampNames) (fun _ _ he => he.1.1) r1
  rw [show (cybox201Cls n sel).nsmap = n from rfl, show (cybox201Cls n sel).xpathVersioned = sel from rfl] at h k2 m2 r2
  generalize ((cybox201Cls n sel).updateSchemalocs t0).edit (versionEdit n sel setVersion21) = d at h k2 m2 r2
  have o2 : ∀ c ∈ d.elems, OneRefreshId c.e := by
    intro c' hc' htag
    obtain ⟨c, hc, _, _, he, _⟩ := rel_elems r2 hc'
    exact once_of_filter (L := stampNames) (by decide) he.2.2.2 (o1 c hc (he.1 ▸ htag))
  split at h
  · cases h
  · next d2 h2 =>
    obtain ⟨⟨f, hf, hfn, rfl⟩, _⟩ := fields201_refreshed h2 k2
    have m3 := came_trans (came_trans (came_moved m2) (came_refresh o2)) (came_moved (moved_ren hf hfn _))
    split at h
    · cases h
    · next d4 h4 =>
      have c4 := carry_same (carry_vocabs (by
        show ∀ v ∈ (cybox201Cls [] []).vocabs, ∀ p ∈ v.terms, p ∈ correctedTerms
        decide) h4)
      have m4 := came_trans m3 (came_moved (rel_mono (fun _ _ he => moved_data (L := vocabNames) (by decide) he) c4))
      cases hb : o.removeOptionals with
      | false => rw [hb] at h; cases h; exact m4
      | true =>
        rw [hb, if_pos rfl, show (cybox201Cls n sel).optionals = cybox201Optionals from rfl, optionals_pass] at h
        cases h
        exact came_trans m4 (came_without _ _)

theorem came_fine {nss : List String} {t t' : Node} (hm : CameFrom nss t t') (hs : NoneNested mailslot201 t')
    (h : ∀ c ∈ t.elems, ¬ Untranslatable rules201 t c) : ∀ c ∈ t'.elems, ¬ Untranslatable rules201 t' c := by
  rintro c' hc' ⟨r, hr, hb⟩
  obtain ⟨c, hc, h1, h2⟩ := hm.1 c' hc'
  have tag : Fresh201 c'.e.tag → c'.e.tag = c.e.tag := fun hf => h1.resolve_right (fun hn => hn hf)
  have anc : c'.anc ≠ [] → c.anc ≠ [] := by
    intro hn he
    rw [he] at h2
    cases hx : c'.anc with
    | nil => exact hn hx
    | cons _ _ => rw [hx] at h2; simp [GivenAll] at h2
  have hr' := hr
  simp only [rules201, List.mem_cons, List.not_mem_nil, or_false] at hr
  rcases hr with rfl | rfl | rfl | rfl
  · refine h c hc ⟨_, hr', anc hb.1, ?_⟩
    rw [← tag (by rw [hb.2]; decide +kernel)]
    exact hb.2
  · refine h c hc ⟨_, hr', anc hb.1, ?_⟩
    rw [← tag (by rw [hb.2]; decide +kernel)]
    exact hb.2
  · obtain ⟨g1, q, qs, g2⟩ := hb
    refine h c hc ⟨_, hr', ?_, ?_⟩
    · rw [← tag (by rw [g1]; decide +kernel)]
      exact g1
    · rw [g2] at h2
      cases hx : c.anc with
      | nil => rw [hx] at h2; simp [GivenAll] at h2
      | cons a as =>
        rw [hx] at h2
        simp only [GivenAll] at h2
        cases as with
        | nil => simp [GivenAll] at h2
        | cons b bs =>
          rcases h2.1 with e | e
          · exact ⟨b, bs, by rw [e]⟩
          · exact absurd (by decide +kernel) e
  · obtain ⟨⟨_, g1⟩, ⟨e, ks, g2, g3⟩, _⟩ := hb
    obtain ⟨i, hi⟩ := List.getElem?_of_mem g2
    exact hs _ (walk_child t' c' hc' i e ks hi) _ (List.mem_singleton.2 rfl) ⟨g3, by simp only [List.head?_cons, g1]; rfl⟩

/-! ## C59 -/

/-- C59 for the CybOX 2.0.1 step, for documents without the fields whose value the step unwraps; `Refresh` fields are allowed, with
one `id` attribute at most, as XML demands. The second run, without the version check, accepts the document and changes nothing.
Partial: the second run stops at a `DNT` or `Vary` field (`C59_headers_fails`); mailslot handles are left out. -/
theorem C59_refresh_step_partial (o : Options) (force' : Bool) (k k' j : Nat) (t : Node) (r : Result)
    (h1 : NoneNamed [objName "HTTPSession" "DNT", objName "HTTPSession" "Vary"] t)
    (h2 : NoneNested [(objName "WinMailslot" "Handle", objName "WinHandle" "Handle")] t)
    (h3 : ∀ c ∈ t.elems, c.e.tag = objName "HTTPSession" "Refresh" → AtMostOnce (.plain "id") c.e.attrs)
    (h : stepUpdate cybox201 o false k t = .ok (r, k')) :
    stepUpdate cybox201 { o with checkVersions := false } force' j r.doc = .ok (⟨r.doc, [], []⟩, j) := by
  have hu := tried h
  obtain ⟨g1, g2⟩ := check201.1 (show cybox201.check { o with checkVersions := false } t = .ok () from unchecked201 (passed h))
  have hm := came201 (nss := known201) (by decide +kernel) (n := Tables.cybox201_nsmap) (sel := xpathObservables) hu ⟨h1, h2⟩ h3
  obtain ⟨_, _, _, l4, _⟩ := left_refresh (n := Tables.cybox201_nsmap) (sel := xpathObservables) (by decide) (by decide)
    (by decide +kernel) hu ⟨h1, h2⟩
  refine retried ?_ (show cybox201.update o r.doc = .ok r.doc from C59_refresh_partial o k k' t r h1 h2 h)
  refine check201.2 ⟨came_fine hm l4.2 g1, ?_⟩
  rw [unshared_iff] at g2 ⊢
  exact hm.2.nodup g2

/-- The sample of `C59_refresh_partial` has a `Refresh` field with an id. -/
example : (NoneNamed [objName "HTTPSession" "DNT", objName "HTTPSession" "Vary"] docRefreshed ∧
    NoneNested [(objName "WinMailslot" "Handle", objName "WinHandle" "Handle")] docRefreshed) ∧
    (∀ c ∈ docRefreshed.elems, c.e.tag = objName "HTTPSession" "Refresh" → AtMostOnce (.plain "id") c.e.attrs) ∧
    ∃ r, stepUpdate cybox201 o0 false 0 docRefreshed = .ok r ∧ (r.1.doc.elems.map (fun c => (c.e.tag.name, c.e.get? (.plain "id"))) =
      [("Observables", none), ("Refresh", some "r")]) :=
  ⟨⟨by unfold NoneNamed; decide +kernel, by unfold NoneNested; decide +kernel⟩, by unfold AtMostOnce; decide +kernel, ok_of_eval (by decide +kernel)⟩

end Ramrod
