import Verif.Props.AgainMailslotStep
/-!
# C59: Repeating the STIX 1.0.1 step on `Refresh` fields and mailslot handles
-/

namespace Ramrod

open Samples

/-! ## Helpers -/

theorem clear_mails {names : List QName} {L : List (QName × QName)} (hn : objName "WinMailslot" "Handle" ∉ names)
    (hL : ∀ q ∈ L, q.1 ≠ objName "WinMailslot" "Handle" ∧ q.2 ≠ objName "WinMailslot" "Handle") {t t' : Node}
    (hr : Replaced TwoLevel InnerHandle t t') (h : ClearOf names L t) : ClearOf names L t' := by
  refine ⟨(clear_mail hn hr ⟨h.1, fun c _ q hq => by cases hq⟩).1, fun c' hc' q hq => ?_⟩
  rintro ⟨x1, x2⟩
  rcases hr.elems hc' with ⟨c, hc, he, _, ha, _⟩ | ⟨c, hc, ha, _, n, env0, ⟨e1, ks1, y1, y2, rfl⟩, _, hw⟩
  · exact h.2 c hc q hq ⟨he ▸ x1, ha ▸ x2⟩
  · simp only [Node.walk, List.mem_cons] at hw
    rcases hw with rfl | hw
    · exact (hL q hq).2 x1.symm
    · obtain ⟨i, hi⟩ := List.mem_iff_getElem?.1 y1
      obtain ⟨d, g2, g3, l, g4, g5⟩ := mem_beneaths (t0 := t) (A := objName "WinMailslot" "Handle" :: c.anc) (B := e1.tag :: c.e.tag :: c.anc)
        ks1 c' hw ⟨_, walk_child t c hc i e1 ks1 hi, fun k hk => hk, [], rfl, rfl⟩
      rw [g4] at x2
      cases l with
      | nil => injection x2 with x2; exact (hL q hq).1 x2.symm
      | cons x xs => exact h.2 d g2 q hq ⟨g3 ▸ x1, by rw [g5]; exact x2⟩

/-- Names that the embedded or stand-alone CybOX 2.0.1 updater does not bring in. -/
theorem kept_handle {n : List (String × String)} {sel : List XAlt} {o : Options} {t t' : Node} (h : cybox201Update (cybox201Cls n sel) o t = .ok t')
    (ht : ClearOf unwrapped201 [] t) {names : List QName} {L : List (QName × QName)}
    (h1 : ∀ q ∈ names, Fresh201 q ∧ q ≠ objName "WinMailslot" "Handle")
    (h2 : ∀ q ∈ L, (Fresh201 q.1 ∧ q.1 ≠ objName "WinMailslot" "Handle") ∧ Fresh201 q.2 ∧ q.2 ≠ objName "WinMailslot" "Handle")
    (hc : ClearOf names L t) : ClearOf names L t' := by
  simp only [cybox201Update] at h
  rw [cybox201Versions_eq] at h
  have k0 : ClearOf names L ((cybox201Cls n sel).updateNamespaces [] t) := clear_ns (fun q hq => (h1 q hq).1) (fun q hq => ⟨(h2 q hq).1.1, (h2 q hq).2.1⟩) hc
  have k1 : ClearOf unwrapped201 [] ((cybox201Cls n sel).updateNamespaces [] t) := clear_ns (by decide +kernel) (by decide +kernel) ht
  generalize (cybox201Cls n sel).updateNamespaces [] t = t0 at h k0 k1
  have r1 := rel_stamped_trans (stamped_schemaloc (cybox201Cls n sel) t0)
    (stamped_versions (m := (cybox201Cls n sel).nsmap) (alts := (cybox201Cls n sel).xpathVersioned) stamped_21 _)
  have k2 := clear_rel (fun _ _ h => ⟨h.1.1.1, h.1.1.2.1⟩) r1 k1
  have k3 := clear_rel (fun _ _ h => ⟨h.1.1.1, h.1.1.2.1⟩) r1 k0
  rw [show (cybox201Cls n sel).nsmap = n from rfl, show (cybox201Cls n sel).xpathVersioned = sel from rfl] at h k2 k3
  generalize ((cybox201Cls n sel).updateSchemalocs t0).edit (versionEdit n sel setVersion21) = d at h k2 k3
  split at h
  · cases h
  · next d2 hd =>
    obtain ⟨f, hf, _, hd2, _⟩ := fields201_handled hd k2
    have k4 : ClearOf names L ((d.replaceBy refreshField).edit (renBelow f)) := by
      refine clear_edit (fun c _ => ?_) (clear_refresh k3)
      unfold renBelow
      split
      · exact Or.inl rfl
      · rcases hf c.e.tag with e | e
        · exact Or.inl e
        · exact Or.inr ⟨fun hq => (h1 _ hq).1.1 e, fun q hq => ⟨fun he => (h2 q hq).1.1.1 (he ▸ e), fun he => (h2 q hq).2.1.1 (he ▸ e)⟩⟩
    have k5 := clear_mails (fun hq => (h1 _ hq).2 rfl) (fun q hq => ⟨(h2 q hq).1.2, (h2 q hq).2.2⟩) (mailslot_replaced hd2) k4
    split at h
    · cases h
    · next d4 h4 =>
      have c4 := carry_same (carry_vocabs (by
        show ∀ v ∈ (cybox201Cls [] []).vocabs, ∀ p ∈ v.terms, p ∈ correctedTerms
        decide) h4)
      exact clear_part (mem_optionalsIf h) (clear_rel (fun _ _ h => ⟨h.1, h.2.1⟩) c4 k5)

/-- No two-level handle is left by the embedded or stand-alone CybOX 2.0.1 updater. -/
theorem two_left {m : List (String × String)} {sel : List XAlt} {o : Options} {t t' : Node}
    (h : cybox201Update (cybox201Cls m sel) o t = .ok t') (hn : NoNestedHandle t) : ∀ c ∈ t'.elems, ¬ TwoLevel c := by
  obtain ⟨b, h2, h3⟩ := cybox201_stages h
  have h1 : Node.Rel PrepElem t (cybox201Prep m sel t) := prep_pass m sel t
  obtain ⟨c, d, e, f, g1, g2, g3, g4, g5⟩ := fields_201 h2
  have q1 : ∀ c n, StringOf c n → ∃ as tx, n = .elem ⟨c.e.tag, [], as, tx, none⟩ [] :=
    fun c n ⟨v, as, _, hn, _⟩ => ⟨as, v.text, hn⟩
  have q2 : ∀ c n, RefreshOf c n → ∃ as tx, n = .elem ⟨c.e.tag, [], as, tx, none⟩ [] :=
    fun c n ⟨as, hn, _⟩ => ⟨as, c.e.text, hn⟩
  exact finished_handles h3 (handles_gone g5 ((respelt_handles g4).2 ((header_handles g3 q2).2 ((header_handles g2 q1).2
    ((header_handles g1 q1).2 ((prep_handles h1).2 hn))))))

theorem no_two_rel {P : Elem → Elem → Prop} (hP : ∀ e e', P e e' → e'.tag = e.tag ∧ e'.decls = e.decls) {t t' : Node} (hr : Node.Rel P t t')
    (h : ∀ c ∈ t.elems, ¬ TwoLevel c) : ∀ c ∈ t'.elems, ¬ TwoLevel c := by
  intro c' hc' ⟨x1, x2, e, ks, x3, x4⟩
  obtain ⟨c, hc, _, ha, hp, hk⟩ := rel_walk_env hP hr c' hc'
  obtain ⟨e0, ks0, y1, y2⟩ := rels_mem hk x3
  exact h c hc ⟨ha ▸ x1, (hP _ _ hp).1 ▸ x2, e0, ks0, y1, (hP _ _ y2).1 ▸ x4⟩

theorem no_two_without {S : Ctx → Bool} {t : Node} (h : ∀ c ∈ t.elems, ¬ TwoLevel c) : ∀ c ∈ (t.without S).elems, ¬ TwoLevel c := by
  intro c' hc' ⟨x1, x2, e, ks, x3, x4⟩
  obtain ⟨c, hc, he, _, ha, hk, _⟩ := mem_without hc'
  rw [hk] at x3
  obtain ⟨j, es, y1, _⟩ := mem_pruneCtxs x3
  exact h c hc ⟨ha ▸ x1, he ▸ x2, e, es, List.mem_of_getElem? y1, x4⟩

theorem fixed_edit {F : Ctx → Elem} (hF : ∀ c, c.anc ≠ [] → (F c).tag = objName "HTTPSession" "Refresh" → F c = c.e) {t : Node}
    (h : RefreshFixed t) : RefreshFixed (t.edit F) := by
  intro c' hc' ha ht
  obtain ⟨c, hc, _, he, hl, hk⟩ := mem_edit hc'
  have hca : c.anc ≠ [] := fun e => ha (List.eq_nil_of_length_eq_zero (by rw [hl, e]; rfl))
  have hs := hF c hca (he ▸ ht)
  rw [hs] at he
  obtain ⟨g1, g2⟩ := h c hc hca (he ▸ ht)
  exact ⟨by rw [hk, g1]; rfl, by rw [he]; exact g2⟩

theorem fixed_schemaloc (u : Cls) {t : Node} (h : RefreshFixed t) : RefreshFixed (u.updateSchemalocs t) := by
  rw [updateSchemalocs_eq]
  refine fixed_edit (fun c ha _ => ?_) h
  unfold schemalocEdit
  rw [if_neg (by simpa using ha)]

theorem fixed_version {m : List (String × String)} {alts : List XAlt} {g : Elem → Elem}
    (hT : ∀ c : Ctx, alts.any (fun a => a.selects m c) = true → (g c.e).tag ≠ objName "HTTPSession" "Refresh") {t : Node}
    (h : RefreshFixed t) : RefreshFixed (t.edit (versionEdit m alts g)) := by
  refine fixed_edit (fun c _ ht => ?_) h
  unfold versionEdit at ht ⊢
  split
  · next hs => rw [if_pos hs] at ht; exact absurd ht (hT c hs)
  · rfl

theorem versioned_refresh {w : World} (c : Ctx) (h : xpathStixVersioned.any (fun a => a.selects (stix101Cls w).nsmap c) = true) :
    (setStixVersion "2.1" "1.1" c.e).tag ≠ objName "HTTPSession" "Refresh" := by
  have h0 : ∀ a ∈ xpathStixVersioned, a.tag.resolve Tables.stix101_nsmap ≠ objName "HTTPSession" "Refresh" := by decide +kernel
  obtain ⟨a, ha, hs⟩ := List.any_eq_true.1 h
  unfold XAlt.selects at hs
  simp only [Bool.and_eq_true, decide_eq_true_eq] at hs
  rw [(setStixVersion_keeps "2.1" "1.1" c.e).1, hs.1.1]
  exact h0 a ha

/-! ## Helpers: the STIX 1.0.1 step -/

theorem again_stix101_fields {w : World} {o : Options} {t t' : Node} (h : (stix101 w).update o t = .ok t') (ht : NoneNamed unwrapped201 t)
    (hn : NoNestedHandle t)
    (ht2 : ClearOf page101.names page101.nested t) : (stix101 w).update o t' = .ok t' := by
  have hl1 : LocFixed stix101Cybox.locTables t' :=
    rewriteAll_fixed (stepTables_wordy (w := w) .stix101) (by simp) (StepTables.stix101 (w := w)) (fixed_first stable_cybox201 apart_101) h
  have hl2 : LocFixed (stix101Cls w).locTables t' :=
    rewriteAll_fixed (stepTables_wordy (w := w) .stix101) (by simp) (StepTables.stix101 (w := w)) (fixed_second (stable_none _ _)) h
  simp only [stix101, stix101Update] at h ⊢
  split at h
  · cases h
  · next t1 h1 =>
    have htc : ClearOf unwrapped201 [] t := ⟨ht, fun c _ q hq => by cases hq⟩
    have gm := two_left (m := joinNsmap Tables.stix101_nsmap Tables.cybox201_nsmap) (sel := stix101Selectors) h1 hn
    obtain ⟨g1, g2, gr, g3, g4, g5⟩ := left_handle (n := joinNsmap Tables.stix101_nsmap Tables.cybox201_nsmap) (sel := stix101Selectors) (by decide)
      (by decide) (by decide +kernel) h1 htc
    have g7 := kept_handle (n := joinNsmap Tables.stix101_nsmap Tables.cybox201_nsmap) (sel := stix101Selectors) h1 htc (by decide +kernel) (by decide +kernel) ht2
    rw [updateNamespaces_none (u := stix101Cls w) rfl, stixVersions_eq, show (stix101Cls w).xpathVersioned = xpathStixVersioned from rfl] at h
    have r1 := rel_stamped_trans (stamped_schemaloc (stix101Cls w) t1)
      (stamped_versions (m := (stix101Cls w).nsmap) (alts := xpathStixVersioned) (stamped_stix "2.1" "1.1") _)
    have s1 : Node.Rel (SameData [tagSchemaLoc, attrVersion]) t1 _ := Node.Rel.comp (P := SameData [tagSchemaLoc]) (Q := SameData [attrVersion])
      (R := SameData [tagSchemaLoc, attrVersion]) (fun _ _ _ h g => (sameData_mono (by simp) h).trans (sameData_mono (by simp) g))
      (by
        rw [updateSchemalocs_eq]
        refine rel_mapCtx (fun c => ?_) [] [] [] t1
        unfold schemalocEdit Cls.updateSchemalocsElem
        split
        · split
          · exact SameData.refl _ _
          · exact SameData.set (by simp) _ _
        · exact SameData.refl _ _)
      (carry_same (carry_stix "2.1" "1.1" (stix101Cls w).nsmap xpathStixVersioned ((stix101Cls w).updateSchemalocs t1)))
    have hv := ver_done (m := (stix101Cls w).nsmap) (alts := xpathStixVersioned) (by decide) (setStixVersion_keeps "2.1" "1.1") (setStix_twice _ _)
      ((stix101Cls w).updateSchemalocs t1)
    have fr := fixed_version (m := (stix101Cls w).nsmap) (g := setStixVersion "2.1" "1.1") versioned_refresh (fixed_schemaloc (stix101Cls w) gr)
    generalize ((stix101Cls w).updateSchemalocs t1).edit (versionEdit (stix101Cls w).nsmap xpathStixVersioned (setStixVersion "2.1" "1.1")) = d
      at h r1 s1 hv fr
    have hP : ∀ e e', Stamped e e' → e'.tag = e.tag ∧ e'.decls = e.decls := fun _ _ h => ⟨h.1.1.1, h.1.1.2.1⟩
    have hQ : ∀ e e', SameData vocabNames e e' → e'.tag = e.tag ∧ e'.decls = e.decls := fun _ _ h => ⟨h.1, h.2.1⟩
    rw [fields101_idle (clear_rel hP r1 g7)] at h
    simp only at h
    split at h
    · cases h
    · next e he =>
      have c2 := carry_same (carry_vocabs (by
        show ∀ v ∈ (stix101Cls w0).vocabs, ∀ p ∈ v.terms, p ∈ correctedTerms
        decide) he)
      have hp : Part e t' := mem_optionalsIf h
      have fe := fixed_vocabs (stepRows_matches (w := w) .stix101) (stepRows_stable (w := w) .stix101) he fr
      have ne := no_two_rel hQ c2 (no_two_rel hP r1 gm)
      have fn : RefreshFixed t' ∧ ∀ c ∈ t'.elems, ¬ TwoLevel c := by
        cases hb : o.removeOptionals with
        | false => rw [hb] at h; cases h; exact ⟨fe, ne⟩
        | true =>
          rw [hb, if_pos rfl, optionals_pass11] at h
          cases h
          exact ⟨fixed_without fe, no_two_without ne⟩
      have hd : o.updateVocabularies = true → _ :=
        vocabsIf_done (stepRows_matches (w := w) .stix101) (stepRows_stable (w := w) .stix101) (by simp [stix101, stix101Cls]) he
      have hcy : cybox201Update stix101Cybox o t' = .ok t' := by
        refine settled_handle (rows := _) hl1 ?_ ?_ fn.1 (clear_part hp (clear_rel hQ c2 (clear_rel hP r1 g3))) fn.2 .cybox201 (fun hb => ⟨?_, (vocabs_part hp (hd hb)).2⟩) ?_
        · exact ver_part (by decide) hp (ver_rel (by decide) (fun _ _ hs he => set21_fixed (by decide) hs he) c2
            (ver_rel (L := [tagSchemaLoc, attrVersion]) (by decide) (fun _ _ hs he => set21_fixed (by decide) hs he) s1 g1))
        · intro c' hc'
          obtain ⟨c, hc, hce, _⟩ := hp c' hc'
          rw [hce]
          exact ns_rel hQ c2 (ns_rel hP r1 g2) c hc
        · intro c' hc' row hrow p ho
          obtain ⟨c, hc, hce, hcv, hca⟩ := hp c' hc'
          obtain ⟨ho1, ty, hty, ho2⟩ := ho
          have hor : Outdated row p c := ⟨by rw [← hca]; exact ho1, ty, hty, (typed_part hce hcv).1 ho2⟩
          rw [hb] at he
          obtain ⟨c3, hc3, ho3⟩ := updateVocabs_foreign (stepRows_matches (w := w) .stix101) (stepRows_stable (w := w) .stix101) he (row := row) (by
            intro r' hr'
            rw [cybox201_rows (w := w0) .cybox201 rfl rfl row hrow]
            simp only [List.mem_cons, List.not_mem_nil, or_false] at hr'
            rcases hr' with rfl | rfl <;> decide) hc hor
          exact outdated_rel (by decide) s1 (g4 _ .cybox201 hb).1 c3 hc3 row hrow p ho3
        · intro hb
          have hc1 := clean_rel (fuller_vocabs (stepRows_matches (w := w) .stix101) (stepRows_stable (w := w) .stix101) he)
            (clean_rel (fuller_stamped r1) (g5 hb))
          rw [hb, if_pos rfl, optionals_pass11] at h
          cases h
          exact clean_without hc1
      rw [hcy]
      simp only
      have hi := vocabsIf_idle (stepRows_matches (w := w) .stix101) (fun hb => vocabs_part hp (hd hb))
      rw [show (stix101 w).cls.vocabs = (stix101Cls w).vocabs from rfl] at hi
      rw [updateNamespaces_none (u := stix101Cls w) rfl, stixVersions_eq, show (stix101Cls w).xpathVersioned = xpathStixVersioned from rfl, loc_idle hl2,
        ver_idle (ver_part (by decide) hp (ver_rel (L := vocabNames) (by decide) (fun _ _ hs he => setStix_fixed (by decide) hs he) c2 hv)),
        fields101_idle (clear_part hp (clear_rel hQ c2 (clear_rel hP r1 g7)))]
      simp only [hi]
      cases hb : o.removeOptionals with
      | false => simp
      | true =>
        rw [hb, if_pos rfl, optionals_pass11] at h
        cases h
        simp only [if_true, optionals_pass11, Except.ok.injEq]
        refine without_nothing (fun c hc _ => ?_)
        rw [← Bool.not_eq_true, optSel_spec (t := e.without (optSel optional11))]
        exact named_clean (gone_named e) c hc

/-! ## C59 -/

/-- C59 for the STIX 1.0.1 step after its checks, for packages without the CybOX fields whose value the step unwraps, without a handle inside
a handle, and without contributors and exploit targets; `Refresh` fields and mailslot handles are allowed.
Partial: as for CybOX 2.0.1 (`C59_mailslot_partial`); contributors and exploit targets are left out. -/
theorem C59_stix101_fields_partial (w : World) (o : Options) (k k' : Nat) (t : Node) (r : Result)
    (h1 : NoneNamed [objName "HTTPSession" "DNT", objName "HTTPSession" "Vary"] t) (h2 : NoNestedHandle t)
    (h3 : NoneNamed page101.names t) (h4 : NoneNested page101.nested t)
    (h : stepUpdate (stix101 w) o false k t = .ok (r, k')) : (stix101 w).update o r.doc = .ok r.doc :=
  again_stix101_fields (tried h) h1 h2 ⟨h3, h4⟩

/-- A package with a mailslot handle and a `Refresh` field. -/
def docPackaged : Node :=
  stixDoc "1.0.1" [el nsStix "Observables" v201 [.elem ⟨objName "WinMailslot" "Handle", [], [], none, none⟩
    [.elem ⟨objName "WinHandle" "Handle", [], [at_ "id" "h"], some "x", none⟩
      [.elem ⟨objName "HTTPSession" "Refresh", [], [at_ "datatype" "int"], some "5", none⟩ []]]]]

example : NoneNamed [objName "HTTPSession" "DNT", objName "HTTPSession" "Vary"] docPackaged ∧ NoNestedHandle docPackaged ∧
    NoneNamed page101.names docPackaged ∧ NoneNested page101.nested docPackaged ∧
    ∃ r, stepUpdate (stix101 w0) o0 false 0 docPackaged = .ok r ∧ (r.1.doc.elems.map (fun c => (c.e.tag.name, c.e.get? (.plain "datatype")))) =
      [("STIX_Package", none), ("Observables", none), ("Handle", none), ("Refresh", some "string")] := by
  refine ⟨by unfold NoneNamed; decide +kernel, fun c hc ht => alls_iff.2 (fun k hk => (all_iff [] [] [] k).2 ?_),
    by unfold NoneNamed; decide +kernel, by unfold NoneNested; decide +kernel, ok_of_eval (by decide +kernel)⟩
  have : ∀ c ∈ docPackaged.elems, c.e.tag = ⟨some "http://cybox.mitre.org/objects#WinHandleObject-2", "Handle"⟩ →
    ∀ k ∈ c.kids, ∀ d ∈ k.walk [] [] [], d.e.tag ≠ ⟨some "http://cybox.mitre.org/objects#WinHandleObject-2", "Handle"⟩ := by
    decide +kernel
  exact this c hc ht k hk

end Ramrod
