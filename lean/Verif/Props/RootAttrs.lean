import Verif.Props.Spelling
/-!
# C73: Other attributes of the root
-/

namespace Ramrod

/-! ## Specification -/

/-- Two documents that differ at most in the values of the attributes `names` of their roots. -/
def SameUpTo (names : List QName) (t t' : Node) : Prop :=
  ∃ e e' ks, t = .elem e ks ∧ t' = .elem e' ks ∧ SameBut names e e'

/-- Two results whose documents differ at most in the values of the attributes `names` of their roots: the removed elements, the
remapped ids and the number of new ids are equal. -/
def SameOutcome (names : List QName) (r r' : Result × Nat) : Prop :=
  SameUpTo names r.1.doc r'.1.doc ∧ r'.1.removed = r.1.removed ∧ r'.1.remapped = r.1.remapped ∧ r'.2 = r.2

/-! ## Updaters -/

variable {T T' : QName} {names : List QName} {t t' : Node}

/-- As `Tracks`, for a step that may rename the root. -/
def TracksTo (T T' : QName) (names : List QName) (P : Node → Except Err Node) : Prop :=
  ∀ t t', Near T names t t' → ∀ s, P t = .ok s → ∃ s', P t' = .ok s' ∧ Near T' names s s'

theorem tracks_ite {b : Bool} {P : Node → Except Err Node} (h : Tracks T names P) :
    Tracks T names (fun t => if b then P t else .ok t) := by
  cases b with
  | false => exact fun t t' hn s hs => by cases hs; exact ⟨t', rfl, hn⟩
  | true => exact h

theorem near_stix {u : Cls} (hm : XName.resolve u.nsmap ⟨"stix", "STIX_Package"⟩ = packageTag) (hx : u.xpathVersioned = xpathStixVersioned)
    (h : Near packageTag names t t') (i v : String) :
    Near packageTag names (stixUpdateVersions u i v t) (stixUpdateVersions u i v t') := by
  rw [stixVersions_eq, stixVersions_eq, hx]
  refine near_set h (package_selected hm) (fun e e' hs => ⟨rfl, ?_⟩)
  unfold setStixVersion
  rw [hs.tag]
  exact hs.put _ _

theorem track_10 (hn : tagSchemaLoc ∉ names) (o : Options) : Tracks packageTag names (stix10Update o) := by
  intro t t' h s hs
  simp only [stix10Update] at hs ⊢
  split at hs
  · cases hs
  · next d hd =>
    obtain ⟨d', hd', h1⟩ := tracks_cybox20 (u := stix10Cybox) hn (offRoot_tags (by decide +kernel)) o t t' h d hd
    simp only [hd']
    have h2 := near_ns h1 stix10Cls
    rw [show stix10Cls.nsUpdated packageTag = false by decide +kernel] at h2
    have h3 := near_schemalocs h2 hn stix10Cls
    exact tracks_ite (tracks_vocabs _) _ _ (near_stix (u := stix10Cls) (by decide +kernel) rfl h3 "2.0.1" "1.0.1") s hs

/-- The last passes of the steps from 1.0.1 and 1.1. -/
theorem track_tail {fs : List Trans} {vs : List Vocab} {os : List Finder} {o : Options} (hf : ∀ f ∈ fs, OffRoot T f.nsmap f.xpath)
    (ho : Tracks T names (removeOptionals os)) : Tracks T names (fun t =>
      match translateFields fs t with
      | .error x => .error x
      | .ok t =>
        match (if o.updateVocabularies then updateVocabs vs t else .ok t) with
        | .error x => .error x
        | .ok t => if o.removeOptionals then removeOptionals os t else .ok t) := by
  intro t t' h s hs
  simp only at hs ⊢
  split at hs
  · cases hs
  · next d hd =>
    obtain ⟨d', hd', h1⟩ := tracks_translates fs hf t t' h d hd
    simp only [hd']
    split at hs
    · cases hs
    · next f hf =>
      obtain ⟨f', hf', h2⟩ := tracks_ite (tracks_vocabs vs) d d' h1 f hf
      have hf'' : (if o.updateVocabularies then updateVocabs vs d' else .ok d') = .ok f' := hf'
      simp only [hf'']
      exact tracks_ite ho f f' h2 s hs

theorem track_101 (hn : tagSchemaLoc ∉ names) (w : World) (o : Options) : Tracks packageTag names (stix101Update w o) := by
  intro t t' h s hs
  simp only [stix101Update] at hs ⊢
  split at hs
  · cases hs
  · next d hd =>
    obtain ⟨d', hd', h1⟩ := tracks_cybox201 (n := joinNsmap Tables.stix101_nsmap Tables.cybox201_nsmap) (sel := stix101Selectors)
      hn (offRoot_rel rfl) (T := packageTag) (by decide +kernel) o t t' h d hd
    have hd'' : cybox201Update stix101Cybox o t' = .ok d' := hd'
    simp only [hd'']
    have h2 := near_ns h1 (stix101Cls w)
    rw [show (stix101Cls w).nsUpdated packageTag = false from rfl] at h2
    have h3 := near_schemalocs h2 hn (stix101Cls w)
    refine track_tail (fs := (stix101Cls w).translatable) (os := (stix101Cls w).optionals) ?_ ?_ _ _ (near_stix (u := stix101Cls w)
      (show XName.resolve Tables.stix101_nsmap ⟨"stix", "STIX_Package"⟩ = packageTag by decide +kernel) rfl h3 "2.1" "1.1") s hs
    · intro f hf
      simp only [stix101Cls, List.mem_cons, List.not_mem_nil, or_false] at hf
      rcases hf with rfl | rfl <;> exact offRoot_rel rfl
    · refine tracks_optionals _ (fun f hf => ?_)
      simp only [stix101Cls, List.mem_cons, List.not_mem_nil, or_false] at hf
      subst hf
      exact ⟨_, rfl, rfl, by decide, rfl⟩

theorem tracks_generic : Tracks T names (removeOptionals [optionalGenericTM]) := by
  refine Tracks.fold _ (fun f h => ?_)
  intro t t' hn s hs
  simp only [List.mem_cons, List.not_mem_nil, or_false] at h
  subst h
  have ht : getTypedNodes t' = getTypedNodes t := by simp only [getTypedNodes, hn.descs]
  have e : optionalGenericTM.find t' = optionalGenericTM.find t := by
    simp [Finder.find, Finder.contexts, optionalGenericTM, ht, XPath.eval, keepEmpty]
  simp only [e] at hs ⊢
  split at hs
  · cases hs
  · next l hl =>
    cases hs
    exact ⟨_, rfl, hn.removeAll _⟩

theorem track_11 (hn : tagSchemaLoc ∉ names) (w : World) (o : Options) : Tracks packageTag names (stix11Update w o) := by
  intro t t' h s hs
  simp only [stix11Update] at hs ⊢
  have h2 := near_schemalocs h hn stix11Cybox
  have h3 := near_schemalocs h2 hn (stix11Cls w)
  refine track_tail (fs := (stix11Cls w).translatable) (os := (stix11Cls w).optionals) ?_ tracks_generic _ _ (near_stix (u := stix11Cls w)
    (show XName.resolve Tables.stix11_nsmap ⟨"stix", "STIX_Package"⟩ = packageTag by decide +kernel) rfl h3 "2.1.1" "1.1.1") s hs
  intro f hf
  simp only [stix11Cls, List.mem_cons, List.not_mem_nil, or_false] at hf
  rcases hf with rfl | rfl | rfl
  · exact offRoot_rel (show relPaths (sourceParents.map (fun p => relIn p.1 p.2 "stixCommon" "Source")) = true by decide)
  · exact offRoot_rel rfl
  · exact offRoot_rel rfl

theorem track_111 (hn : tagSchemaLoc ∉ names) (o : Options) : Tracks packageTag names (stix111Update o) := by
  intro t t' h s hs
  simp only [stix111Update] at hs ⊢
  have h3 := near_schemalocs h hn stix111Cls
  exact tracks_ite (tracks_vocabs _) _ _ (near_stix (u := stix111Cls) (by decide +kernel) rfl h3 "2.2" "1.2") s hs

theorem track_12 (hn : tagSchemaLoc ∉ names) (o : Options) : ∃ T', TracksTo packageTag T' names (stix12Update o) := by
  refine ⟨if stix12Cls.nsUpdated packageTag then stix12Cls.remappedTag packageTag else packageTag, fun t t' h s hs => ?_⟩
  simp only [stix12Update] at hs ⊢
  have h3 := near_schemalocs (near_ns h stix12Cls) hn stix12Cls
  refine ⟨_, rfl, ?_⟩
  cases hs
  obtain ⟨e, e', ks, h4, h5, h7, h6⟩ := h3
  rw [h4, h5]
  exact ⟨_, _, ks, rfl, rfl, h7, h6.put attrVersion "1.2.1"⟩

theorem track_20 (hn : tagSchemaLoc ∉ names) (o : Options) :
    Tracks observablesTag names (cybox20Update (cybox20Cls Tables.cybox20_nsmap xpathObservables) o) := by
  intro t t' h s hs
  simp only [cybox20Update] at hs ⊢
  rw [cybox20Versions_eq] at hs ⊢
  have h1 := near_schemalocs h hn (cybox20Cls Tables.cybox20_nsmap xpathObservables)
  have h2 := near_set (names' := names) (g := setVersion201) h1 (m := Tables.cybox20_nsmap) (alts := xpathObservables)
    (observables_selected (by decide +kernel)) (fun e e' hs => ⟨rfl, ((hs.put attrMajor "2").put attrMinor "0").put attrUpdate "1"⟩)
  exact tracks_ite (tracks_vocabs _) _ _ (near_lists h2 (cybox20Cls Tables.cybox20_nsmap xpathObservables)) s hs

theorem track_201 (hn : tagSchemaLoc ∉ names) (o : Options) :
    Tracks observablesTag names (cybox201Update (cybox201Cls Tables.cybox201_nsmap xpathObservables) o) := by
  intro t t' h s hs
  simp only [cybox201Update] at hs ⊢
  rw [cybox201Versions_eq] at hs ⊢
  have h0 := near_ns h (cybox201Cls Tables.cybox201_nsmap xpathObservables)
  rw [show (cybox201Cls Tables.cybox201_nsmap xpathObservables).nsUpdated observablesTag = false by decide +kernel] at h0
  have h1 := near_schemalocs h0 hn (cybox201Cls Tables.cybox201_nsmap xpathObservables)
  have h2 := near_set (names' := names) (g := setVersion21) h1 (m := Tables.cybox201_nsmap) (alts := xpathObservables)
    (observables_selected (by decide +kernel)) (fun e e' hs => ⟨rfl,
      ((((hs.put attrMajor "2").put attrMinor "1").del attrUpdate).mono (fun _ hq => (List.mem_filter.1 hq).1))⟩)
  exact track_tail (fs := (cybox201Cls Tables.cybox201_nsmap xpathObservables).translatable)
    (os := (cybox201Cls Tables.cybox201_nsmap xpathObservables).optionals) cybox_translatable (tracks_optionals _ cybox_optionals) _ _ h2 s hs

/-! ## Checks -/

theorem agree_stix_same {u : Cls} (hm : XName.resolve u.nsmap ⟨"stix", "STIX_Package"⟩ = packageTag) (hx : u.xpathRoots = xpathStixRoots)
    (hv : attrVersion ∉ names) (h : Near packageTag names t t') : AgreeOn (stixCheckVersion u t) (stixCheckVersion u t') := by
  obtain ⟨e, e', ks, rfl, rfl, ht, hs⟩ := h
  have hroot : ∀ f : Elem, f.tag = packageTag → ∃ l, u.rootNodes (.elem f ks) = rootCtx f ks :: l := by
    intro f hf
    simp only [Cls.rootNodes, Node.xpath, elems_elem, hx, List.filter_cons]
    have : (xpathStixRoots.any fun a => a.selects u.nsmap (rootCtx f ks)) = true := by
      simp [xpathStixRoots, XAlt.selects, absX, XPred.holds, hm, rootCtx, hf]
    rw [this]
    exact ⟨_, rfl⟩
  obtain ⟨l, hl⟩ := hroot e ht
  obtain ⟨l', hl'⟩ := hroot e' (hs.tag.trans ht)
  have hg : stixGetVersion (rootCtx e' ks).e = stixGetVersion (rootCtx e ks).e := hs.vals attrVersion hv
  simp only [stixCheckVersion, hl, hl', hg]
  split
  · exact AgreeOn.refl _
  · next x _ =>
    split
    · exact AgreeOn.refl _
    · cases (isVersionEqual x u.version : Except Err Bool) with
      | error a => exact AgreeOn.refl _
      | ok b =>
        cases b
        · exact ⟨fun h => (nomatch h), fun c hc => by cases hc; exact ⟨_, rfl, rfl⟩⟩
        · exact AgreeOn.refl _

theorem cyboxVersion_same {e e' : Elem} (hs : SameBut names e e') (hv : ∀ q ∈ cyboxNames, q ∉ names) : cyboxGetVersion e' = cyboxGetVersion e := by
  simp only [cyboxGetVersion, hs.vals attrMajor (hv _ (by simp [cyboxNames])), hs.vals attrMinor (hv _ (by simp [cyboxNames])),
    hs.vals attrUpdate (hv _ (by simp [cyboxNames]))]

theorem agree_cybox_same {u : Cls} (hm : XName.resolve u.nsmap ⟨"cybox", "Observables"⟩ = observablesTag) (hx : u.xpathRoots = xpathObservables)
    (hv : ∀ q ∈ cyboxNames, q ∉ names) (h : Near observablesTag names t t') : AgreeOn (cyboxCheckVersion u t) (cyboxCheckVersion u t') := by
  have hd := h.descs
  obtain ⟨e, e', ks, rfl, rfl, ht, hs⟩ := h
  have hroot : ∀ f : Elem, f.tag = observablesTag → u.rootNodes (.elem f ks) = rootCtx f ks ::
      (Node.elem f ks).descs.filter (fun c => xpathObservables.any fun a => a.selects u.nsmap c) := by
    intro f hf
    simp only [Cls.rootNodes, Node.xpath, elems_elem, hx, List.filter_cons]
    have : (xpathObservables.any fun a => a.selects u.nsmap (rootCtx f ks)) = true := by
      simp [xpathObservables, XAlt.selects, absX, XPred.holds, hm, rootCtx, hf]
    rw [this]
    rfl
  have hg : cyboxGetVersion (rootCtx e' ks).e = cyboxGetVersion (rootCtx e ks).e := cyboxVersion_same hs hv
  simp only [cyboxCheckVersion, hroot e ht, hroot e' (hs.tag.trans ht), cyboxCheckRoots, hg, hd]
  cases cyboxGetVersion (rootCtx e ks).e with
  | error a => exact AgreeOn.refl _
  | ok x =>
    simp only
    cases (isVersionEqual u.version x : Except Err Bool) with
    | error a => exact AgreeOn.refl _
    | ok b =>
      cases b
      · exact ⟨fun h => (nomatch h), fun c hc => by cases hc; exact ⟨_, rfl, rfl⟩⟩
      · exact AgreeOn.refl _

/-! ## Steps and chains -/

/-- Results of steps, with the name of the root. -/
def NearResult (T : QName) (names : List QName) (r r' : Result × Nat) : Prop :=
  Near T names r.1.doc r'.1.doc ∧ r'.1.removed = r.1.removed ∧ r'.1.remapped = r.1.remapped ∧ r'.2 = r.2

theorem step_tracks {w : World} {u : Updater} {o : Options} {force : Bool} {k : Nat} {r : Result × Nat} (hg : Registered w u)
    (h : Near T names t t') (hm : TracksTo T T' names (u.update o)) (hc : AgreeOn (u.check o t) (u.check o t'))
    (hd : SameDis (u.disallowed t) (u.disallowed t')) (hu : u.duplicates t' = u.duplicates t)
    (hr : stepUpdate u o force k t = .ok r) : ∃ r', stepUpdate u o force k t' = .ok r' ∧ NearResult T' names r r' := by
  simp only [stepUpdate, tryUpdate] at hr ⊢
  cases hx : u.check o t with
  | ok _ =>
    rw [hc.1 hx]
    rw [hx] at hr
    simp only at hr ⊢
    cases hy : u.update o t with
    | ok d =>
      obtain ⟨d', hd', hn⟩ := hm _ _ h d hy
      rw [hd']; rw [hy] at hr
      cases hr
      exact ⟨_, rfl, hn, rfl, rfl, rfl⟩
    | error x =>
      rw [hy] at hr
      simp only [noRefuse_update hg o t x hy, Bool.false_and, Bool.false_eq_true, if_false] at hr
      cases hr
  | error x =>
    obtain ⟨b, hb, hrf⟩ := hc.2 x hx
    rw [hx] at hr
    rw [hb]
    simp only [hrf] at hr ⊢
    split at hr
    · next hif =>
      rw [if_pos hif]
      simp only [forceUpdate] at hr ⊢
      split at hr
      · cases hr
      · next q kq hq =>
        obtain ⟨⟨q', kq'⟩, hq', n1, n2, n3, n4⟩ := clean_near h hd hu _ hq
        rw [hq']
        simp only at n1 n2 n3 n4 ⊢
        split at hr
        · cases hr
        · next d hd2 =>
          obtain ⟨d', hd', hn⟩ := hm _ _ n1 d hd2
          rw [hd']
          cases hr
          exact ⟨_, rfl, hn, n2, n3, n4⟩
    · cases hr

theorem stix_step_tracks {w : World} {o : Options} {force : Bool} {k : Nat} {r : Result × Nat} {v : String} {u : Updater}
    (hq : attrVersion ∉ names) (hn : tagSchemaLoc ∉ names) (hv : assoc (stixUpdaters w) v = some u) (h : Near packageTag names t t')
    (hr : stepUpdate u o force k t = .ok r) :
    ∃ r' T', stepUpdate u o force k t' = .ok r' ∧ NearResult T' names r r' ∧ (v ≠ "1.2" → T' = packageTag) := by
  obtain ⟨r1, r2⟩ := stix_resolve hv
  obtain ⟨f1, f2⟩ := stix_finds hv h
  have hm : ∃ T', TracksTo packageTag T' names (u.update o) ∧ (v ≠ "1.2" → T' = packageTag) := by
    have hmem := assoc_mem hv
    simp only [stixUpdaters, List.mem_cons, List.not_mem_nil, or_false, Prod.mk.injEq] at hmem
    rcases hmem with ⟨_, rfl⟩ | ⟨_, rfl⟩ | ⟨_, rfl⟩ | ⟨_, rfl⟩ | ⟨hv2, rfl⟩
    · exact ⟨_, track_10 hn o, fun _ => rfl⟩
    · exact ⟨_, track_101 hn w o, fun _ => rfl⟩
    · exact ⟨_, track_11 hn w o, fun _ => rfl⟩
    · exact ⟨_, track_111 hn o, fun _ => rfl⟩
    · obtain ⟨T', hT⟩ := track_12 hn o
      exact ⟨T', hT, fun hne => absurd hv2 hne⟩
  obtain ⟨T', hT, hT2⟩ := hm
  obtain ⟨r', hr', hres⟩ := step_tracks (registered_stix hv) h hT (stix_agree hv h (fun _ => agree_stix_same r1 r2 hq h)) f1 f2 hr
  exact ⟨r', T', hr', hres, hT2⟩

theorem cybox_step_tracks {o : Options} {force : Bool} {k : Nat} {r : Result × Nat} {v : String} {u : Updater}
    (hq : ∀ q ∈ cyboxNames, q ∉ names) (hn : tagSchemaLoc ∉ names) (hv : assoc cyboxUpdaters v = some u) (h : Near observablesTag names t t')
    (hr : stepUpdate u o force k t = .ok r) : ∃ r', stepUpdate u o force k t' = .ok r' ∧ NearResult observablesTag names r r' := by
  obtain ⟨r1, r2⟩ := cybox_resolve hv
  obtain ⟨f1, f2⟩ := cybox_finds hv h
  have hm : TracksTo observablesTag observablesTag names (u.update o) := by
    have hmem := assoc_mem hv
    simp only [cyboxUpdaters, List.mem_cons, List.not_mem_nil, or_false, Prod.mk.injEq] at hmem
    rcases hmem with ⟨_, rfl⟩ | ⟨_, rfl⟩
    · exact track_20 hn o
    · exact track_201 hn o
  exact step_tracks (registered_cybox72 hv) h hm (cybox_agree hv h (fun _ => agree_cybox_same r1 r2 hq h)) f1 f2 hr

/-- A whole run, when only its last step may rename the root. -/
theorem chain_tracks {reg : List (String × Updater)} {o : Options} {force : Bool} {bad : String} {P : QName}
    (hstep : ∀ v u t t' k r, assoc reg v = some u → Near P names t t' → stepUpdate u o force k t = .ok r →
      ∃ r' T', stepUpdate u o force k t' = .ok r' ∧ NearResult T' names r r' ∧ (v ≠ bad → T' = P)) :
    ∀ (vs : List String) (t t' : Node) (a : List Node) (m : List (String × List String)) (k : Nat) (r : Result × Nat),
      (vs.dropLast.all (fun v => decide (v ≠ bad))) = true → Near P names t t' → chainLoop reg o force vs ⟨t, a, m⟩ k = .ok r →
      ∃ r', chainLoop reg o force vs ⟨t', a, m⟩ k = .ok r' ∧ SameOutcome names r r'
  | [], t, t', a, m, k, r, _, h, hr => by
    cases hr
    obtain ⟨e, e', ks, h1, h2, _, h3⟩ := h
    exact ⟨_, rfl, ⟨e, e', ks, h1, h2, h3⟩, rfl, rfl, rfl⟩
  | v :: vs, t, t', a, m, k, r, hb, h, hr => by
    simp only [chainLoop] at hr ⊢
    split at hr
    · cases hr
    · next u hu =>
      split at hr
      · cases hr
      · next q kq hq =>
        obtain ⟨⟨q', kq'⟩, T', hq', ⟨n1, n2, n3, n4⟩, hT⟩ := hstep v u t t' k _ hu h hq
        simp only at n1 n2 n3 n4
        simp only [hq', n2, n3, n4]
        cases vs with
        | nil =>
          cases hr
          obtain ⟨e, e', ks, h1, h2, _, h3⟩ := n1
          exact ⟨_, rfl, ⟨e, e', ks, h1, h2, h3⟩, rfl, rfl, rfl⟩
        | cons v2 vs =>
          simp only [List.dropLast_cons_cons, List.all_cons, Bool.and_eq_true, decide_eq_true_eq] at hb
          rw [hT hb.1] at n1
          exact chain_tracks hstep (v2 :: vs) q.doc q'.doc _ _ kq r hb.2 n1 hr

theorem stix_last : ∀ s ∈ stixReleases, ∀ g ∈ stixReleases, ((between stixReleases s g).dropLast.all (fun v => decide (v ≠ "1.2"))) = true := by
  decide

/-! ## C73 -/

/-- C73: other attributes of the root do not matter.  Take a package and change nothing but the values of some of its
attributes, the version and `xsi:schemaLocation` not among them.  If an update, forced or not, succeeds on the first package it
succeeds on the second, and the results differ only in the values of these attributes on the root: the same elements are removed and the same
ids remapped. -/
theorem C73_stix (w : World) (names : List QName) (e e' : Elem) (ks : List Node) (from_ to_ : Option String) (o : Options) (force : Bool) (k : Nat)
    (r : Result × Nat) (he : e.tag = ⟨some "http://stix.mitre.org/stix-1", "STIX_Package"⟩) (hsame : SameBut names e e')
    (hv : ⟨none, "version"⟩ ∉ names) (hl : ⟨some "http://www.w3.org/2001/XMLSchema-instance", "schemaLocation"⟩ ∉ names)
    (h : update w (.elem e ks) from_ to_ o force k = .ok r) :
    ∃ r', update w (.elem e' ks) from_ to_ o force k = .ok r' ∧ SameOutcome names r r' := by
  have hn : e.tag.name = "STIX_Package" := by rw [he]
  have hn' : e'.tag.name = "STIX_Package" := by rw [hsame.tag, he]
  rw [(C01_dispatch w e ks _ to_ o force k).1 hn] at h
  rw [(C01_dispatch w e' ks _ to_ o force k).1 hn']
  obtain ⟨g, hg⟩ := inForce_some to_ "1.2.1"
  obtain ⟨s, hs, hold⟩ := stix_ok_range hg h
  have hs2 : inForce from_ (stixRootVersion (.elem e' ks)) = some s := by
    rw [show stixRootVersion (.elem e' ks) = stixRootVersion (.elem e ks) from hsame.vals _ hv]; exact hs
  have hm := older_mem hold
  rw [stixUpdate_accepted w _ o force k hs hg hold] at h
  rw [stixUpdate_accepted w _ o force k hs2 hg hold]
  exact chain_tracks (bad := "1.2") (P := packageTag) (fun v u t t' k r hvu hnr hr => stix_step_tracks hv hl hvu hnr hr) _ _ _ _ _ _ _
    (stix_last s hm.1 g hm.2) ⟨e, e', ks, rfl, rfl, he, hsame⟩ h

/-- C73 for CybOX documents. -/
theorem C73_cybox (w : World) (names : List QName) (e e' : Elem) (ks : List Node) (from_ to_ : Option String) (o : Options) (force : Bool) (k : Nat)
    (r : Result × Nat) (he : e.tag = ⟨some "http://cybox.mitre.org/cybox-2", "Observables"⟩) (hsame : SameBut names e e')
    (hv : ∀ n ∈ ["cybox_major_version", "cybox_minor_version", "cybox_update_version"], ⟨none, n⟩ ∉ names)
    (hl : ⟨some "http://www.w3.org/2001/XMLSchema-instance", "schemaLocation"⟩ ∉ names)
    (h : update w (.elem e ks) from_ to_ o force k = .ok r) :
    ∃ r', update w (.elem e' ks) from_ to_ o force k = .ok r' ∧ SameOutcome names r r' := by
  have hn : e.tag.name = "Observables" := by rw [he]
  have hn' : e'.tag.name = "Observables" := by rw [hsame.tag, he]
  have hv2 : ∀ q ∈ cyboxNames, q ∉ names := by
    intro q hq
    simp only [cyboxNames, List.mem_cons, List.not_mem_nil, or_false] at hq
    rcases hq with rfl | rfl | rfl
    · exact hv "cybox_major_version" (by simp)
    · exact hv "cybox_minor_version" (by simp)
    · exact hv "cybox_update_version" (by simp)
  rw [(C01_dispatch w e ks _ to_ o force k).2.1 hn] at h
  rw [(C01_dispatch w e' ks _ to_ o force k).2.1 hn']
  obtain ⟨g, hg⟩ := inForce_some to_ "2.1"
  obtain ⟨s, hs, hold⟩ := cybox_ok_range hg h
  have hs2 : cyboxSource (.elem e' ks) from_ = .ok (some s) := by
    have : cyboxRootVersion (.elem e' ks) = cyboxRootVersion (.elem e ks) := cyboxVersion_same hsame hv2
    simp only [cyboxSource, this] at hs ⊢; exact hs
  rw [cyboxUpdate_accepted _ o force k hs hg hold] at h
  rw [cyboxUpdate_accepted _ o force k hs2 hg hold]
  exact chain_tracks (bad := "") (P := observablesTag) (fun v u t t' k r hvu hnr hr => by
      obtain ⟨r', h1, h2⟩ := cybox_step_tracks hv2 hl hvu hnr hr
      exact ⟨r', _, h1, h2, fun _ => rfl⟩) _ _ _ _ _ _ _
    (by have hm := older_mem hold
        exact (show ∀ s ∈ cyboxReleases, ∀ g ∈ cyboxReleases, ((between cyboxReleases s g).dropLast.all (fun v => decide (v ≠ ""))) = true by decide)
          s hm.1 g hm.2) ⟨e, e', ks, rfl, rfl, he, hsame⟩ h

/-! ## Examples -/

open Samples

/-- A package with the given id, time and type. -/
def rootE (i d x : String) : Elem := ⟨⟨some nsStix, "STIX_Package"⟩, [(some "stix", nsStix), (some "xsi", nsXsi)],
  [at_ "id" i, at_ "version" "1.0.1", at_ "timestamp" d, xsiType x], none, none⟩

def rootNames : List QName := [⟨none, "id"⟩, ⟨none, "timestamp"⟩, tagXsiType]

theorem rootE_same (i d x i' d' x' : String) : SameBut rootNames (rootE i d x) (rootE i' d' x') := by
  refine ⟨rfl, rfl, rfl, rfl, rfl, by
    show [(QName.mk none "id"), ⟨none, "version"⟩, ⟨none, "timestamp"⟩, tagXsiType].Nodup; decide, fun q hq => ?_⟩
  simp only [rootNames, List.mem_cons, List.not_mem_nil, or_false, not_or] at hq
  have h1 : ¬ (⟨none, "id"⟩ : QName) = q := fun h => hq.1 h.symm
  have h2 : ¬ (⟨none, "timestamp"⟩ : QName) = q := fun h => hq.2.1 h.symm
  have h3 : ¬ tagXsiType = q := fun h => hq.2.2 h.symm
  simp [Elem.get?, rootE, at_, xsiType, QName.plain, Attrs.get?, h1, h2, h3]

/-- Two indicators that share an id, which is also that of the first package. -/
def rootKids : List Node := [el nsStix "Indicators" [] [el nsStix "Indicator" [at_ "id" "a:1"] [], el nsStix "Indicator" [at_ "id" "a:1"] []]]

/-- The forced update of the first package gives both indicators new ids; the id of the package stays. -/
example : ∃ r, update w0 (.elem (rootE "a:1" "2014" "stix:STIXType") rootKids) none (some "1.1") o0 true 0 = .ok r ∧
    (r.1.remapped.map (fun p => p.2.length) = [2] ∧ r.1.doc.root?.bind (fun e => e.get? ⟨none, "id"⟩) = some "a:1") :=
  ok_of_eval (by decide +kernel)

/-- Another id, time and an ill-formed type on the root make no difference. -/
example (r : Result × Nat) (h : update w0 (.elem (rootE "a:1" "2014" "stix:STIXType") rootKids) none (some "1.1") o0 true 0 = .ok r) :
    ∃ r', update w0 (.elem (rootE "b:9" "" "no:type:at all") rootKids) none (some "1.1") o0 true 0 = .ok r' ∧ SameOutcome rootNames r r' :=
  C73_stix w0 rootNames _ _ rootKids none _ o0 true 0 r rfl (rootE_same _ _ _ _ _ _) (by decide) (by decide) h

/-- Observables with an id. -/
def obsRoot (i : String) : Elem := ⟨⟨some nsCyboxCore, "Observables"⟩, [(some "cybox", nsCyboxCore)], at_ "id" i :: v201, none, none⟩

theorem obsRoot_same (i i' : String) : SameBut [⟨none, "id"⟩] (obsRoot i) (obsRoot i') := by
  refine ⟨rfl, rfl, rfl, rfl, rfl, by
    show [(QName.mk none "id"), ⟨none, "cybox_major_version"⟩, ⟨none, "cybox_minor_version"⟩, ⟨none, "cybox_update_version"⟩].Nodup; decide,
    fun q hq => ?_⟩
  have h1 : ¬ (⟨none, "id"⟩ : QName) = q := fun h => hq (by simp [h])
  simp [Elem.get?, obsRoot, at_, QName.plain, Attrs.get?, h1]

example : ∃ r, update w0 (.elem (obsRoot "a:2") obsKids) none none o0 true 0 = .ok r ∧ r.1.remapped.length = 1 := ok_of_eval (by decide +kernel)
example (r : Result × Nat) (h : update w0 (.elem (obsRoot "a:2") obsKids) none none o0 true 0 = .ok r) :
    ∃ r', update w0 (.elem (obsRoot "a:3") obsKids) none none o0 true 0 = .ok r' ∧ SameOutcome [⟨none, "id"⟩] r r' :=
  C73_cybox w0 _ _ _ obsKids none none o0 true 0 r rfl (obsRoot_same _ _) (by decide) (by decide) h

end Ramrod
