import Verif.Lemmas.Root
import Verif.Lemmas.Attrs
import Verif.Props.Chain
/-!
# The version of the result: C05, C42
-/

namespace Ramrod

open Samples

/-! ## Specification vocabulary -/

/-- Name of a STIX package element. -/
def packageTag : QName := ⟨some "http://stix.mitre.org/stix-1", "STIX_Package"⟩
/-- Name of a CybOX observables element. -/
def observablesTag : QName := ⟨some "http://cybox.mitre.org/cybox-2", "Observables"⟩

/-- The CybOX version attributes of an element say `v`: `major.minor` without an update number,
`major.minor.update` with one. -/
def SaysCybox (e : Elem) (v : String) : Prop :=
  ∃ a b, e.get? (.plain "cybox_major_version") = some a ∧ a ≠ "" ∧
    e.get? (.plain "cybox_minor_version") = some b ∧ b ≠ "" ∧
    ((e.get? (.plain "cybox_update_version") = none ∧ v = a ++ "." ++ b) ∨
     ∃ c, c ≠ "" ∧ e.get? (.plain "cybox_update_version") = some c ∧ v = a ++ "." ++ b ++ "." ++ c)

/-! ## Helpers -/

theorem root_some {t : Node} {e : Elem} (h : t.root? = some e) : ∃ ks, t = .elem e ks := by
  cases t with
  | other _ _ => cases h
  | elem e' ks => simp only [Node.root?, Option.some.injEq] at h; exact ⟨ks, by rw [h]⟩

theorem root_modify_xpath (e : Elem) (ks : List Node) (m : List (String × String)) (alts : List XAlt)
    (g : Elem → Elem) :
    ((Node.elem e ks).modifyAll (((Node.elem e ks).xpath m alts).map (·.pos)) g).root? =
      some (if alts.any (fun a => a.selects m (rootCtx e ks)) then g e else e) := by
  rw [Node.xpath, modifyAll_filter, root_edit]
  rfl

mutual
theorem updateNamespaces_nil {u : Cls} (h : u.updateNsMap = []) (env : NsMap) : ∀ t : Node,
    u.updateNamespaces env t = t
  | .other _ _ => by simp [Cls.updateNamespaces]
  | .elem e ks => by
    have : u.nsUpdated e.tag = false := by
      unfold Cls.nsUpdated; rw [h]; split <;> rfl
    simp [Cls.updateNamespaces, this, updateNamespacess_nil h (e.decls ++ env) ks]
theorem updateNamespacess_nil {u : Cls} (h : u.updateNsMap = []) (env : NsMap) : ∀ ks : List Node,
    Cls.updateNamespacess u env ks = ks
  | [] => by simp [Cls.updateNamespacess]
  | k :: ks => by
    simp [Cls.updateNamespacess, updateNamespaces_nil h env k, updateNamespacess_nil h env ks]
end

/-- The root element after a pass has the tag `q`. -/
def RootTag (q : QName) (t : Node) : Prop := ∃ e, t.root? = some e ∧ e.tag = q

theorem RootTag.of_eq {q : QName} {t t' : Node} (h : t'.root? = t.root?) (ht : RootTag q t) : RootTag q t' := by
  unfold RootTag; rw [h]; exact ht

theorem RootTag.schemalocs {q : QName} {t : Node} (u : Cls) (ht : RootTag q t) :
    RootTag q (u.updateSchemalocs t) := by
  obtain ⟨e, he, hq⟩ := ht
  refine ⟨u.updateSchemalocsElem e, ?_, ?_⟩
  · rw [root_updateSchemalocs, he]; rfl
  · rw [updateSchemalocsElem_tag, hq]

theorem RootTag.modify {q : QName} {t : Node} {m : List (String × String)} {alts : List XAlt}
    {g : Elem → Elem} (hg : ∀ e, (g e).tag = e.tag) (ht : RootTag q t) :
    RootTag q (t.modifyAll ((t.xpath m alts).map (·.pos)) g) := by
  obtain ⟨e, he, hq⟩ := ht
  obtain ⟨ks, rfl⟩ := root_some he
  rw [RootTag, root_modify_xpath]
  split
  · exact ⟨_, rfl, by rw [hg, hq]⟩
  · exact ⟨_, rfl, hq⟩

theorem RootTag.namespaces {q : QName} {t : Node} {u : Cls} (hu : u.nsUpdated q = false) (ht : RootTag q t) :
    RootTag q (u.updateNamespaces [] t) := by
  obtain ⟨e, he, hq⟩ := ht
  obtain ⟨ks, rfl⟩ := root_some he
  rw [RootTag, root_updateNamespaces, hq, hu]
  exact ⟨e, rfl, hq⟩

theorem belowRoot_cybox201 : ∀ f ∈ cybox201Translatable, BelowRoot f.xpath := by
  intro f hf
  simp only [cybox201Translatable, List.mem_cons, List.not_mem_nil, or_false] at hf
  rcases hf with rfl | rfl | rfl | rfl | rfl | rfl | rfl | rfl <;> exact (by decide)

theorem belowRoot_stix101 (w : World) : ∀ f ∈ (stix101Cls w).translatable, BelowRoot f.xpath := by
  intro f hf
  simp only [stix101Cls, List.mem_cons, List.not_mem_nil, or_false] at hf
  rcases hf with rfl | rfl <;> exact (by decide)

theorem belowRoot_stix11 (w : World) : ∀ f ∈ (stix11Cls w).translatable, BelowRoot f.xpath := by
  intro f hf
  simp only [stix11Cls, List.mem_cons, List.not_mem_nil, or_false] at hf
  rcases hf with rfl | rfl | rfl
  · show BelowRoot (sourceParents.map (fun p => relIn p.1 p.2 "stixCommon" "Source"))
    decide
  · show BelowRoot [relIn "indicator" "Sighting" "indicator" "Source"]
    decide
  · exact (by decide)

theorem cybox20Update_rootTag {u : Cls} {o : Options} {t d : Node} {q : QName}
    (h : cybox20Update u o t = .ok d) (ht : RootTag q t) : RootTag q d := by
  simp only [cybox20Update] at h
  refine RootTag.of_eq (root_vocabsIf h) ?_
  refine RootTag.of_eq (root_updateLists u _) ?_
  exact RootTag.modify (fun _ => rfl) (ht.schemalocs u)

theorem cybox201Update_rootTag {n : List (String × String)} {sel : List XAlt} {o : Options} {t d : Node}
    {q : QName} (hq : (cybox201Cls n sel).nsUpdated q = false)
    (h : cybox201Update (cybox201Cls n sel) o t = .ok d) (ht : RootTag q t) : RootTag q d := by
  simp only [cybox201Update] at h
  split at h
  · cases h
  · next t1 h1 =>
    split at h
    · cases h
    · next t2 h2 =>
      refine RootTag.of_eq (root_optionalsIf h) ?_
      refine RootTag.of_eq (root_vocabsIf h2) ?_
      refine RootTag.of_eq (root_translateFields belowRoot_cybox201 h1) ?_
      exact RootTag.modify (fun _ => rfl) ((ht.namespaces hq).schemalocs _)

theorem stixVersions_root {t : Node} {u : Cls} {ind other : String} (hu : u.xpathVersioned = xpathStixVersioned)
    (hn : assoc u.nsmap "stix" = some "http://stix.mitre.org/stix-1") (ht : RootTag packageTag t) :
    ∃ e, (stixUpdateVersions u ind other t).root? = some e ∧ e.tag = packageTag ∧
      e.get? (.plain "version") = some other := by
  obtain ⟨e, he, hq⟩ := ht
  obtain ⟨ks, rfl⟩ := root_some he
  refine ⟨setStixVersion ind other e, ?_, hq, ?_⟩
  · unfold stixUpdateVersions Cls.versionedNodes
    rw [root_modify_xpath, if_pos]
    rw [hu]
    refine List.any_eq_true.2 ⟨absX "stix" "STIX_Package", by simp [xpathStixVersioned], ?_⟩
    simp [XAlt.selects, absX, rootCtx, XName.resolve, hn, hq, packageTag, XPred.holds]
  · unfold setStixVersion
    rw [hq, Elem.get?_set]
    simp [attrVersion, packageTag]

/-- Source releases with their successors. -/
def stixNext (v : String) : String :=
  match v with
  | "1.0" => "1.0.1"
  | "1.0.1" => "1.1"
  | "1.1" => "1.1.1"
  | "1.1.1" => "1.2"
  | _ => "1.2.1"

/-- A STIX step keeps the root a package of the next release; the last step moves it to the new namespace. -/
theorem stix_update_root {w : World} {v : String} {u : Updater} (hu : assoc (stixUpdaters w) v = some u)
    {o : Options} {t d : Node} (h : u.update o t = .ok d) (ht : RootTag packageTag t) :
    ∃ e, d.root? = some e ∧ e.get? (.plain "version") = some (stixNext v) ∧
      e.tag.name = "STIX_Package" ∧ (v ≠ "1.2" → e.tag = packageTag) := by
  have hm := assoc_mem hu
  simp only [stixUpdaters, List.mem_cons, Prod.mk.injEq, List.not_mem_nil, or_false] at hm
  rcases hm with ⟨rfl, rfl⟩ | ⟨rfl, rfl⟩ | ⟨rfl, rfl⟩ | ⟨rfl, rfl⟩ | ⟨rfl, rfl⟩
  · change stix10Update o t = .ok d at h
    simp only [stix10Update] at h
    split at h
    · cases h
    · next t1 h1 =>
      rw [updateNamespaces_nil (u := stix10Cls) rfl] at h
      have ht1 := (cybox20Update_rootTag h1 ht).schemalocs stix10Cls
      obtain ⟨e, he, hq, hv⟩ := stixVersions_root (u := stix10Cls) (ind := "2.0.1") (other := "1.0.1")
        rfl (by decide) ht1
      exact ⟨e, by rw [root_vocabsIf h]; exact he, hv, by rw [hq]; rfl, fun _ => hq⟩
  · change stix101Update w o t = .ok d at h
    simp only [stix101Update] at h
    split at h
    · cases h
    · next t1 h1 =>
      rw [updateNamespaces_nil (u := stix101Cls w) rfl] at h
      have ht1 := (cybox201Update_rootTag (by decide) h1 ht).schemalocs (stix101Cls w)
      obtain ⟨e, he, hq, hv⟩ := stixVersions_root (u := stix101Cls w) (ind := "2.1") (other := "1.1")
        rfl (show assoc Tables.stix101_nsmap "stix" = _ by decide) ht1
      split at h
      · cases h
      · next t2 h2 =>
        split at h
        · cases h
        · next t3 h3 =>
          refine ⟨e, ?_, hv, by rw [hq]; rfl, fun _ => hq⟩
          rw [root_optionalsIf h, root_vocabsIf h3, root_translateFields (belowRoot_stix101 w) h2]
          exact he
  · change stix11Update w o t = .ok d at h
    simp only [stix11Update] at h
    have ht1 := (ht.schemalocs stix11Cybox).schemalocs (stix11Cls w)
    obtain ⟨e, he, hq, hv⟩ := stixVersions_root (u := stix11Cls w) (ind := "2.1.1") (other := "1.1.1")
      rfl (show assoc Tables.stix11_nsmap "stix" = _ by decide) ht1
    split at h
    · cases h
    · next t2 h2 =>
      split at h
      · cases h
      · next t3 h3 =>
        refine ⟨e, ?_, hv, by rw [hq]; rfl, fun _ => hq⟩
        rw [root_optionalsIf h, root_vocabsIf h3, root_translateFields (belowRoot_stix11 w) h2]
        exact he
  · change stix111Update o t = .ok d at h
    simp only [stix111Update] at h
    obtain ⟨e, he, hq, hv⟩ := stixVersions_root (u := stix111Cls) (ind := "2.2") (other := "1.2")
      rfl (by decide) (ht.schemalocs stix111Cls)
    exact ⟨e, by rw [root_vocabsIf h]; exact he, hv, by rw [hq]; rfl, fun _ => hq⟩
  · change stix12Update o t = .ok d at h
    simp only [stix12Update, Except.ok.injEq] at h
    obtain ⟨e, he, hq⟩ := ht
    obtain ⟨ks, rfl⟩ := root_some he
    have hr := root_updateNamespaces stix12Cls e ks
    obtain ⟨ks', hks⟩ := root_some hr
    rw [hks] at h
    simp only [Cls.updateSchemalocs, setRootVersion] at h
    subst h
    refine ⟨_, rfl, ?_, ?_, fun h => absurd rfl h⟩
    · rw [Elem.get?_set]; simp [attrVersion, stixNext]
    · rw [Elem.set_tag, updateSchemalocsElem_tag]
      split
      · simp [Cls.updateNsmapElem, Cls.remappedTag, hq, packageTag]
      · rw [hq]; rfl

/-- A CybOX step keeps the root and sets the version attributes to the next release. -/
theorem cybox_update_root {v : String} {u : Updater} (hu : assoc cyboxUpdaters v = some u)
    {o : Options} {t d : Node} (h : u.update o t = .ok d) (ht : RootTag observablesTag t) :
    ∃ e, d.root? = some e ∧ e.tag = observablesTag ∧
      SaysCybox e (if v = "2.0" then "2.0.1" else "2.1") := by
  have hm := assoc_mem hu
  simp only [cyboxUpdaters, List.mem_cons, Prod.mk.injEq, List.not_mem_nil, or_false] at hm
  rcases hm with ⟨rfl, rfl⟩ | ⟨rfl, rfl⟩
  · change cybox20Update (cybox20Cls Tables.cybox20_nsmap xpathObservables) o t = .ok d at h
    simp only [cybox20Update] at h
    obtain ⟨e, he, hq⟩ := ht.schemalocs (cybox20Cls Tables.cybox20_nsmap xpathObservables)
    obtain ⟨ks, hks⟩ := root_some he
    rw [hks] at h
    refine ⟨setVersion201 e, ?_, hq, ?_⟩
    · rw [root_vocabsIf h, root_updateLists]
      unfold cybox20UpdateVersions Cls.versionedNodes
      rw [root_modify_xpath, if_pos]
      refine List.any_eq_true.2 ⟨absX "cybox" "Observables", by simp [cybox20Cls, xpathObservables], ?_⟩
      have hn : assoc (cybox20Cls Tables.cybox20_nsmap xpathObservables).nsmap "cybox" =
        some "http://cybox.mitre.org/cybox-2" := by decide
      simp [XAlt.selects, absX, rootCtx, XName.resolve, hn, hq, observablesTag, XPred.holds]
    · refine ⟨"2", "0", ?_, by decide, ?_, by decide, Or.inr ⟨"1", by decide, ?_, by decide⟩⟩ <;>
        simp [setVersion201, Elem.get?_set, attrMajor, attrMinor, attrUpdate, QName.plain]
  · change cybox201Update (cybox201Cls Tables.cybox201_nsmap xpathObservables) o t = .ok d at h
    simp only [cybox201Update] at h
    have hn0 : (cybox201Cls Tables.cybox201_nsmap xpathObservables).nsUpdated observablesTag = false := by decide
    obtain ⟨e, he, hq⟩ := (ht.namespaces hn0).schemalocs
      (cybox201Cls Tables.cybox201_nsmap xpathObservables)
    obtain ⟨ks, hks⟩ := root_some he
    rw [hks] at h
    split at h
    · cases h
    · next t1 h1 =>
      split at h
      · cases h
      · next t2 h2 =>
        refine ⟨setVersion21 e, ?_, hq, ?_⟩
        · rw [root_optionalsIf h, root_vocabsIf h2, root_translateFields belowRoot_cybox201 h1]
          unfold cybox201UpdateVersions Cls.versionedNodes
          rw [root_modify_xpath, if_pos]
          refine List.any_eq_true.2 ⟨absX "cybox" "Observables", by simp [cybox201Cls, xpathObservables], ?_⟩
          have hn : assoc (cybox201Cls Tables.cybox201_nsmap xpathObservables).nsmap "cybox" =
            some "http://cybox.mitre.org/cybox-2" := by decide
          simp [XAlt.selects, absX, rootCtx, XName.resolve, hn, hq, observablesTag, XPred.holds]
        · refine ⟨"2", "1", ?_, by decide, ?_, by decide, Or.inl ⟨?_, by decide⟩⟩ <;>
            simp [setVersion21, Elem.get?_set, Elem.get?_del, attrMajor, attrMinor, attrUpdate, QName.plain]

/-- Invariant along a chain that ends with the step of `v`. -/
theorem chainLoop_last {reg : List (String × Updater)} {o : Options} {force : Bool} {T R : Node → Prop} {v : String}
    (hR : ∀ u, assoc reg v = some u → ∀ k t r k', T t → stepUpdate u o force k t = .ok (r, k') → R r.doc) :
    ∀ (vs : List String) (acc : Result) (k : Nat) (r : Result) (k' : Nat),
    (∀ x ∈ vs, ∀ u, assoc reg x = some u → ∀ k t r k', T t → stepUpdate u o force k t = .ok (r, k') → T r.doc) →
    T acc.doc → chainLoop reg o force (vs ++ [v]) acc k = .ok (r, k') → R r.doc
  | [], acc, k, r, k', _, ht, h => by
    simp only [List.nil_append, chainLoop] at h
    split at h
    · cases h
    · next u hu =>
      split at h
      · cases h
      · next r1 k1 hs =>
        simp only [Except.ok.injEq, Prod.mk.injEq] at h
        rw [← h.1]
        exact hR u hu _ _ r1 _ ht hs
  | x :: xs, acc, k, r, k', hT, ht, h => by
    simp only [List.cons_append, chainLoop] at h
    split at h
    · cases h
    · next u hu =>
      split at h
      · cases h
      · next r1 k1 hs =>
        have ht' := hT x (by simp) u hu _ _ _ _ ht hs
        exact chainLoop_last hR xs ⟨r1.doc, acc.removed ++ r1.removed, dictUpdate acc.remapped r1.remapped⟩ _ _ _
          (fun y hy => hT y (by simp [hy])) ht' h

theorem stix_between_last : ∀ s ∈ stixReleases, ∀ g ∈ stixReleases, stixReleases.idxOf s < stixReleases.idxOf g →
    ∃ v ∈ stixReleases, between stixReleases s g = (between stixReleases s g).dropLast ++ [v] ∧
      stixNext v = g ∧ (g ≠ "1.2.1" → v ≠ "1.2") ∧
      "1.2" ∉ (between stixReleases s g).dropLast := by
  decide

theorem cybox_between_last : ∀ s ∈ cyboxReleases, ∀ g ∈ cyboxReleases, cyboxReleases.idxOf s < cyboxReleases.idxOf g →
    ∃ v ∈ cyboxReleases, between cyboxReleases s g = (between cyboxReleases s g).dropLast ++ [v] ∧
      (if v = "2.0" then "2.0.1" else "2.1") = g := by
  decide

/-- A STIX update that returns had an acceptable range. -/
theorem stix_ok_range {w : World} {t : Node} {from_ to_ : Option String} {o : Options} {force : Bool} {k : Nat}
    {r : Result × Nat} {g : String} (hg : inForce to_ (some "1.2.1") = some g)
    (h : stixUpdate w t from_ to_ o force k = .ok r) :
    ∃ s, inForce from_ (stixRootVersion t) = some s ∧ Older stixReleases s g := by
  have H := C02_stix_range w t from_ to_ o force k _ _ rfl rfl
  cases hs : inForce from_ (stixRootVersion t) with
  | none => rw [hs] at H; rw [H.1 (Or.inl rfl)] at h; cases h
  | some s =>
    rw [hs, hg] at H
    refine ⟨s, rfl, ?_⟩
    by_cases h0 : s = ""
    · subst h0; rw [H.1 (Or.inr rfl)] at h; cases h
    · by_cases hs1 : s ∈ stixReleases
      · by_cases hg1 : g ∈ stixReleases
        · refine Classical.byContradiction (fun hno => ?_)
          rw [H.2.2.2.1 s g rfl rfl hs1 hg1 hno] at h; cases h
        · rw [H.2.2.1 s g rfl hs1 rfl hg1] at h; cases h
      · rw [H.2.1 s rfl h0 hs1] at h; cases h

theorem cybox_ok_range {t : Node} {from_ to_ : Option String} {o : Options} {force : Bool} {k : Nat}
    {r : Result × Nat} {g : String} (hg : inForce to_ (some "2.1") = some g)
    (h : cyboxUpdate t from_ to_ o force k = .ok r) :
    ∃ s, cyboxSource t from_ = .ok (some s) ∧ Older cyboxReleases s g := by
  have H := C02_cybox_range t from_ to_ o force k _ rfl
  cases hs : cyboxSource t from_ with
  | error x => rw [H.1 x hs] at h; cases h
  | ok s =>
    cases s with
    | none =>
      exfalso
      unfold cyboxSource at hs
      split at hs
      · cases hs
      · cases hv : cyboxRootVersion t <;> rw [hv] at hs <;> cases hs
    | some s =>
      rw [hs, hg] at H
      refine ⟨s, rfl, ?_⟩
      have h0 : s ≠ "" := by
        intro e
        subst e
        unfold cyboxSource at hs
        split at hs
        · next v hv =>
          cases hs
          unfold inForce at hv
          split at hv <;> simp_all
        · simp only [cyboxRootVersion] at hs
          split at hs
          · cases hs
          · next e _ =>
            simp only [cyboxGetVersion] at hs
            split at hs
            · cases hs
            · split at hs <;> (simp only [Except.map, Except.ok.injEq, Option.some.injEq] at hs; have := congrArg String.toList hs; simp at this)
      by_cases hs1 : s ∈ cyboxReleases
      · by_cases hg1 : g ∈ cyboxReleases
        · refine Classical.byContradiction (fun hno => ?_)
          rw [H.2.2.2.1 s g rfl rfl hs1 hg1 hno] at h; cases h
        · rw [H.2.2.1 s g rfl hs1 rfl hg1] at h; cases h
      · rw [H.2.1 s rfl h0 hs1] at h; cases h

/-! ## C05 -/

/-- C05 for STIX: a successful update of a STIX package yields a root whose `version` is the target in
force (the latest release when none is given), whatever was in the document, forced or not.  Up to 1.2
the result is again a package in the same namespace. -/
theorem C05_stix (w : World) (t : Node) (from_ to_ : Option String) (o : Options) (force : Bool) (k : Nat)
    (root : Elem) (hroot : t.root? = some root) (htag : root.tag = packageTag) (g : String)
    (hg : inForce to_ (some "1.2.1") = some g) (r : Result) (k' : Nat)
    (h : update w t from_ to_ o force k = .ok (r, k')) :
    ∃ e, r.doc.root? = some e ∧ e.get? (.plain "version") = some g ∧ e.tag.name = "STIX_Package" ∧
      (g ≠ "1.2.1" → e.tag = packageTag) := by
  obtain ⟨ks, rfl⟩ := root_some hroot
  rw [(C01_dispatch w root ks from_ to_ o force k).1 (by rw [htag]; rfl)] at h
  obtain ⟨s, hs, hold⟩ := stix_ok_range hg h
  rw [stixUpdate_accepted w _ o force k hs hg hold] at h
  have hm := older_mem hold
  obtain ⟨v, _, hb, hnext, hne, h12⟩ :=
    stix_between_last s hm.1 g hm.2 ((older_iff stix_nodup hm.1 hm.2).1 hold)
  rw [hb] at h
  refine chainLoop_last (T := RootTag packageTag)
    (R := fun d => ∃ e, d.root? = some e ∧ e.get? (.plain "version") = some g ∧ e.tag.name = "STIX_Package" ∧
      (g ≠ "1.2.1" → e.tag = packageTag))
    ?_ _ _ _ r k' ?_ ?_ h
  · intro u hu k t r k' ht hst
    obtain ⟨t1, hr1, hu1⟩ := step_update (registered_stix hu) hst
    obtain ⟨e, he, hev, hen, het⟩ := stix_update_root hu hu1 (ht.of_eq hr1)
    exact ⟨e, he, by rw [hev, hnext], hen, fun hg' => het (hne hg')⟩
  · intro x hx u hu k t r k' ht hst
    obtain ⟨t1, hr1, hu1⟩ := step_update (registered_stix hu) hst
    obtain ⟨e, he, _, _, het⟩ := stix_update_root hu hu1 (ht.of_eq hr1)
    exact ⟨e, he, het (fun h => h12 (h ▸ hx))⟩
  · exact ⟨root, rfl, htag⟩

example : (update w0 doc111 none (some "1.2") o0 false 0).isOk = true ∧
    (update w0 doc10bad (some "1.0") (some "1.2") o0 true 0).isOk = true := by decide +kernel

/-- C05 for CybOX: the version attributes of the resulting root say the target in force. -/
theorem C05_cybox (w : World) (t : Node) (from_ to_ : Option String) (o : Options) (force : Bool) (k : Nat)
    (root : Elem) (hroot : t.root? = some root) (htag : root.tag = observablesTag) (g : String)
    (hg : inForce to_ (some "2.1") = some g) (r : Result) (k' : Nat)
    (h : update w t from_ to_ o force k = .ok (r, k')) :
    ∃ e, r.doc.root? = some e ∧ e.tag = observablesTag ∧ SaysCybox e g := by
  obtain ⟨ks, rfl⟩ := root_some hroot
  rw [(C01_dispatch w root ks from_ to_ o force k).2.1 (by rw [htag]; rfl)] at h
  obtain ⟨s, hs, hold⟩ := cybox_ok_range hg h
  rw [cyboxUpdate_accepted _ o force k hs hg hold] at h
  have hm := older_mem hold
  obtain ⟨v, _, hb, hnext⟩ :=
    cybox_between_last s hm.1 g hm.2 ((older_iff cybox_nodup hm.1 hm.2).1 hold)
  rw [hb] at h
  refine chainLoop_last (T := RootTag observablesTag)
    (R := fun d => ∃ e, d.root? = some e ∧ e.tag = observablesTag ∧ SaysCybox e g)
    ?_ _ _ _ r k' ?_ ?_ h
  · intro u hu k t r k' ht hst
    obtain ⟨t1, hr1, hu1⟩ := step_update (w := w) (registered_cybox hu) hst
    obtain ⟨e, he, het, hev⟩ := cybox_update_root hu hu1 (ht.of_eq hr1)
    exact ⟨e, he, het, by rw [← hnext]; exact hev⟩
  · intro x hx u hu k t r k' ht hst
    obtain ⟨t1, hr1, hu1⟩ := step_update (w := w) (registered_cybox hu) hst
    obtain ⟨e, he, het, _⟩ := cybox_update_root hu hu1 (ht.of_eq hr1)
    exact ⟨e, he, het⟩
  · exact ⟨root, rfl, htag⟩

example : (update w0 cybox201bad none none o0 true 0).isOk = true := by decide +kernel

/-! ## C42 -/

theorem saysCybox_read {e : Elem} {v : String} (h : SaysCybox e v) : cyboxGetVersion e = .ok v := by
  obtain ⟨a, b, ha, ha0, hb, hb0, hc⟩ := h
  simp only [cyboxGetVersion, attrMajor, attrMinor, attrUpdate, ha, hb]
  rcases hc with ⟨hc, rfl⟩ | ⟨c, hc0, hc, rfl⟩
  · simp [hc, falsy, ha0, hb0]
  · simp [hc, falsy, ha0, hb0, hc0]

/-- C42, read-back for STIX: after a successful update to `g`, updating the result again
without a source version is updating it from `g`. -/
theorem C42_stix_read_back (w : World) (t : Node) (from_ to_ : Option String) (o : Options) (force : Bool)
    (k : Nat) (root : Elem) (hroot : t.root? = some root) (htag : root.tag = packageTag) (g : String)
    (hg : inForce to_ (some "1.2.1") = some g) (r : Result) (k' : Nat)
    (h : update w t from_ to_ o force k = .ok (r, k')) (to2 : Option String) (o2 : Options) (force2 : Bool)
    (k2 : Nat) :
    update w r.doc none to2 o2 force2 k2 = update w r.doc (some g) to2 o2 force2 k2 := by
  obtain ⟨e, he, hv, hn, _⟩ := C05_stix w t from_ to_ o force k root hroot htag g hg r k' h
  obtain ⟨ks, hks⟩ := root_some he
  rw [hks, (C42_defaults w e ks none to2 o2 force2 k2).1 hn, hv]

example : (update w0 doc111 none (some "1.2") o0 false 0).isOk = true := by decide +kernel

/-- C42, read-back for CybOX. -/
theorem C42_cybox_read_back (w : World) (t : Node) (from_ to_ : Option String) (o : Options) (force : Bool)
    (k : Nat) (root : Elem) (hroot : t.root? = some root) (htag : root.tag = observablesTag) (g : String)
    (hg : inForce to_ (some "2.1") = some g) (r : Result) (k' : Nat)
    (h : update w t from_ to_ o force k = .ok (r, k')) (to2 : Option String) (o2 : Options) (force2 : Bool)
    (k2 : Nat) :
    update w r.doc none to2 o2 force2 k2 = update w r.doc (some g) to2 o2 force2 k2 := by
  obtain ⟨e, he, ht, hv⟩ := C05_cybox w t from_ to_ o force k root hroot htag g hg r k' h
  obtain ⟨ks, hks⟩ := root_some he
  rw [hks, (C42_defaults w e ks none to2 o2 force2 k2).2.1 (by rw [ht]; rfl) g (saysCybox_read hv)]

example : (update w0 (cyboxDoc v20 []) none (some "2.0.1") o0 false 0).isOk = true := by decide +kernel

end Ramrod
