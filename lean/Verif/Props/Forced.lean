import Verif.Props.Checks
/-!
# C53: forcing is cleaning and then updating
-/

namespace Ramrod
open Samples

/-! ## Helpers -/

theorem clean_nothing {u : Updater} {o : Options} {k : Nat} {t : Node} {d : Option (List Ctx)} (hd : u.disallowed t = .ok d)
    (h1 : d.getD [] = []) (h2 : (u.duplicates t).getD [] = []) : clean u o k t = .ok (⟨t, [], []⟩, k) := by
  simp only [clean, hd]
  cases hu : u.duplicates t with
  | none =>
    cases d with
    | none => rfl
    | some l =>
      have : l = [] := h1
      subst this; rfl
  | some g =>
    rw [hu] at h2
    have : g = [] := h2
    subst this
    cases d with
    | none => rfl
    | some l =>
      have : l = [] := h1
      subst this; rfl

theorem accepted_clean {w : World} {u : Updater} {rules : List Rule} {nss : Option (List String)} {ty : Bool}
    {V : Node → Prop} (hu : StepRules w u rules nss ty V) (h12 : u.cls.version ≠ "1.2") {o : Options} {k : Nat} {t : Node}
    (h : u.check o t = .ok ()) : clean u o k t = .ok (⟨t, [], []⟩, k) := by
  cases hu with
  | cybox20 => exact clean_nothing (d := none) rfl rfl rfl
  | stix11 => exact clean_nothing (d := none) rfl rfl rfl
  | stix111 => exact clean_nothing (d := none) rfl rfl rfl
  | stix12 => exact absurd (by decide) h12
  | cybox201 =>
    have h : cybox201Check _ o t = _ := h
    unfold cybox201Check at h
    split at h
    · cases h
    · dsimp only at h
      split at h
      · cases h
      · next l hl =>
        split at h
        · next he =>
          simp only [Bool.and_eq_true, List.isEmpty_iff] at he
          have hd : cybox201.disallowed t = .ok (some l) := by
            show (findAll cybox201Disallowed t).map some = _
            have hl' : findAll cybox201Disallowed t = .ok l := hl
            rw [hl']; rfl
          exact clean_nothing hd he.1 he.2
        · cases h
  | stix10 =>
    have h : stix10Check o t = _ := h
    unfold stix10Check at h
    split at h
    · cases h
    · split at h
      · cases h
      · next l hl =>
        split at h
        · next he =>
          have hd : stix10.disallowed t = .ok (some l) := by
            show (stix10GetDisallowed t).map some = _
            rw [hl]; rfl
          exact clean_nothing hd (List.isEmpty_iff.1 he) rfl
        · cases h
  | stix101 =>
    have h : stix101Check w o t = _ := h
    unfold stix101Check at h
    split at h
    · cases h
    · dsimp only at h
      split at h
      · cases h
      · next l hl =>
        split at h
        · next he =>
          simp only [Bool.and_eq_true, List.isEmpty_iff] at he
          have hd : (stix101 w).disallowed t = .ok (some l) := by
            show (stix101GetDisallowed w t).map some = _
            rw [hl]; rfl
          exact clean_nothing hd he.1 he.2
        · cases h

theorem clean_wellTyped {w : World} {u : Updater} {rules : List Rule} {nss : Option (List String)} {ty : Bool}
    {V : Node → Prop} (hu : StepRules w u rules nss ty V) {o : Options} {k k' : Nat} {t : Node} {r : Result}
    (hc : clean u o k t = .ok (r, k')) (ht : WellTyped t) : WellTyped r.doc := by
  intro c' hc' ha hx
  obtain ⟨c, h⟩ := clean_kept hu hc hc'
  have hg : c'.e.get? ⟨some "http://www.w3.org/2001/XMLSchema-instance", "type"⟩ =
      c.e.get? ⟨some "http://www.w3.org/2001/XMLSchema-instance", "type"⟩ := h.same.2.2.2.2.2 _ (by decide)
  obtain ⟨p, ty, ns, s, h1, h2, h3⟩ := ht c h.mem (h.anc ▸ ha) (hg ▸ hx)
  exact ⟨p, ty, ns, s, hg.trans h1, h2, h.env ▸ h3⟩

/-- A step that leaves nothing untranslatable when cleaning accepts what it cleaned. -/
theorem cleaned_check {w : World} {u : Updater} {rules : List Rule} {nss : Option (List String)} {ty : Bool}
    {V : Node → Prop} (hu : StepRules w u rules nss ty V) {o : Options} {k k' : Nat} {t : Node} {r : Result}
    (ht : ty = true → WellTyped t) (hf : FreshFrom o.newId k t) (hc : clean u o k t = .ok (r, k'))
    (hn : ∀ c ∈ r.doc.elems, ¬ Untranslatable rules r.doc c) : u.check (unchecked o) r.doc = .ok () := by
  obtain ⟨l, g, h1, h2, h3⟩ := check_spec hu (o := unchecked o) (t := r.doc) (fun h => clean_wellTyped hu hc (ht h))
    (fun h => by cases h)
  have hl : l = [] := by
    rw [List.eq_nil_iff_forall_not_mem]
    intro c hm
    obtain ⟨q1, q2⟩ := (reportsAll_mem h1 c).1 hm
    exact hn c q1 q2
  have hg : g.getD [] = [] := by
    cases nss with
    | none => rw [show g = none from h2]; rfl
    | some ns =>
      obtain ⟨d, rfl, hd⟩ := h2
      rw [List.eq_nil_iff_forall_not_mem]
      rintro ⟨i, g⟩ hm
      exact C15_unique w u rules ns ty V hu o k k' t r hf hc i ((hd.2 i g).1 hm).1
  rw [h3, hl, hg]
  rfl

/-- The check with and without the versions. -/
theorem check_either {w : World} {u : Updater} {rules : List Rule} {nss : Option (List String)} {ty : Bool}
    {V : Node → Prop} (hu : StepRules w u rules nss ty V) {o : Options} {t : Node} (hw : o.checkVersions = true → WellVersioned t) :
    u.check o t = u.check (unchecked o) t ∨ ∃ x, VersionRefusal x ∧ u.check o t = .error x := by
  cases ho : o.checkVersions with
  | false =>
    left
    have : unchecked o = o := by cases o; simp_all [unchecked]
    rw [this]
  | true =>
    by_cases hv : V t
    · exact Or.inl (check_unchecked hu hv)
    · exact Or.inr ((check_versions hu ho (hw ho)).2 hv)

/-- Cleaning first, then an unforced update without version checks; the reports of the cleaning are kept. -/
def cleanThenUpdate (u : Updater) (o : Options) (k : Nat) (t : Node) : Except Err (Result × Nat) :=
  match clean u o k t with
  | .error x => .error x
  | .ok (r, k') =>
    match stepUpdate u { o with checkVersions := false } false k' r.doc with
    | .error x => .error x
    | .ok (s, n) => .ok (⟨s.doc, r.removed, r.remapped⟩, n)

theorem unforced_run {w : World} {u : Updater} (hu : Registered w u) {o : Options} {k : Nat} {t : Node}
    (h : u.check (unchecked o) t = .ok ()) : stepUpdate u { o with checkVersions := false } false k t =
      match u.update o t with
      | .error x => .error x
      | .ok d => .ok (⟨d, [], []⟩, k) := by
  show stepUpdate u (unchecked o) false k t = _
  simp only [stepUpdate, tryUpdate, h, update_unchecked hu o]
  cases u.update o t <;> simp

theorem force_eq {w : World} {u : Updater} {rules : List Rule} {nss : Option (List String)} {ty : Bool}
    {V : Node → Prop} (hu : StepRules w u rules nss ty V) (h12 : u.cls.version ≠ "1.2") {o : Options} {k : Nat} {t : Node}
    (ht : ty = true → WellTyped t) (hw : o.checkVersions = true → WellVersioned t) (hf : FreshFrom o.newId k t)
    (hn : ∀ r k', clean u o k t = .ok (r, k') → ∀ c ∈ r.doc.elems, ¬ Untranslatable rules r.doc c) :
    stepUpdate u o true k t = cleanThenUpdate u o k t := by
  have hr := stepRules_registered hu
  have ok : u.check (unchecked o) t = .ok () → u.check o t = .ok () → stepUpdate u o true k t = cleanThenUpdate u o k t := by
    intro h h'
    have hc : clean u o k t = .ok (⟨t, [], []⟩, k) := accepted_clean hu h12 (o := o) h'
    simp only [cleanThenUpdate, hc, unforced_run hr h]
    simp only [stepUpdate, tryUpdate, h']
    cases hx : u.update o t with
    | ok d => rfl
    | error x =>
      have := noRefuse_update hr _ _ _ hx
      simp [this]
  have bad : ∀ x, refusable x = true → u.check o t = .error x → stepUpdate u o true k t = cleanThenUpdate u o k t := by
    intro x hx h
    have hs : stepUpdate u o true k t = forceUpdate u o k t := by
      simp only [stepUpdate, tryUpdate, h, hx, Bool.and_self, if_true]
    simp only [hs, forceUpdate, cleanThenUpdate]
    cases hc : clean u o k t with
    | error y => rfl
    | ok q =>
      obtain ⟨r, k'⟩ := q
      simp only [unforced_run hr (cleaned_check hu ht hf hc (hn r k' hc))]
      cases u.update o r.doc <;> rfl
  rcases check_either hu hw with h | ⟨x, hx, h⟩
  · obtain ⟨l, g, _, _, h3⟩ := check_spec hu (o := unchecked o) (t := t) ht (fun h => by cases h)
    split at h3
    · exact ok h3 (h.trans h3)
    · exact bad _ rfl (h.trans h3)
  · exact bad x (refusal_refusable hx) h

/-! ## Theorems -/

/-- C53, first part: cleaning a document that a step accepts changes nothing and reports nothing. -/
theorem C53_accepted_partial (w : World) (u : Updater) (rules : List Rule) (nss : Option (List String)) (ty : Bool)
    (V : Node → Prop) (hu : StepRules w u rules nss ty V) (h12 : u.cls.version ≠ "1.2") (o : Options) (k : Nat) (t : Node)
    (h : u.check o t = .ok ()) : clean u o k t = .ok (⟨t, [], []⟩, k) := accepted_clean hu h12 h

/-- A 1.0.1 package with two ids is accepted. -/
example : (stix101 w0).check o0 (stixDoc "1.0.1" [el nsTTP "Resources" [at_ "id" "a"] [el nsTTP "Tools" [at_ "id" "b"]]]) = .ok () := by
  decide +kernel

/-- C53 fails for the step from 1.2: it accepts the document, but cleaning raises `NotImplementedError`. -/
theorem C53_stix12_fails : (stepUpdate stix12 o0 true 0 (stixDoc "1.2" [])).isOk = true ∧
    clean stix12 o0 0 (stixDoc "1.2" []) = .error .notImplemented ∧
    cleanThenUpdate stix12 o0 0 (stixDoc "1.2" []) = .error .notImplemented := by
  decide +kernel

/-- C53 for CybOX: a forced step is cleaning and then updating, for every document without malformed versions. -/
theorem C53_cybox (u : Updater) (hu : u = cybox20 ∨ u = cybox201) (o : Options) (k : Nat) (t : Node)
    (hw : o.checkVersions = true → WellVersioned t) (hf : FreshFrom o.newId k t) :
    stepUpdate u o true k t = cleanThenUpdate u o k t := by
  rcases hu with rfl | rfl
  · exact force_eq (w := w0) .cybox20 (by decide) (fun h => by cases h) hw hf (fun r k' _ c _ ⟨_, h, _⟩ => by cases h)
  · exact force_eq (w := w0) .cybox201 (by decide) (fun h => by cases h) hw hf (fun r k' hc => C13_cybox o k k' t r hc)

/-- Options with fresh ids for the examples. -/
def oFresh : Options := { newId := fun n _ => String.ofList (List.replicate (n + 2) 'x') }

theorem fresh_of {t : Node} (h : (t.elems.all fun c => decide (((c.e.get? ⟨none, "id"⟩).getD "").toList.length < 2)) = true) :
    FreshFrom oFresh.newId 0 t := by
  constructor
  · intro j j' i i' _ _ h
    have := congrArg (fun s => s.toList.length) h
    simpa [oFresh] using this
  · intro c hc j i _ h'
    have h1 := of_decide_eq_true (List.all_eq_true.1 h c hc)
    rw [h'] at h1
    simp [oFresh] at h1
    omega

/-- A document with shared ids and an untranslatable header, and of the wrong version. -/
example : (oFresh.checkVersions = true → WellVersioned cybox201bad) ∧ FreshFrom oFresh.newId 0 cybox201bad ∧
    ∃ r n, cleanThenUpdate cybox201 oFresh 0 cybox201bad = .ok (r, n) ∧ r.removed.length = 1 ∧
      r.remapped = [("d", ["xx", "xxx"])] := by
  refine ⟨fun _ => wellVersioned_of (by decide +kernel), fresh_of (by decide +kernel), ?_⟩
  obtain ⟨⟨r, n⟩, h, h1⟩ := ok_of_eval (x := cleanThenUpdate cybox201 oFresh 0 cybox201bad)
    (P := fun r => r.1.removed.length = 1 ∧ r.1.remapped = [("d", ["xx", "xxx"])]) (by decide +kernel)
  exact ⟨r, n, h, h1⟩

/-- C53 fails for a malformed version: the forced step raises `ValueError`, cleaning and then updating works. -/
theorem C53_malformed_fails : stepUpdate cybox20 o0 true 0 (cyboxDoc [at_ "cybox_major_version" "x", at_ "cybox_minor_version" "0"] []) =
      .error .valueError ∧
    (cleanThenUpdate cybox20 o0 0 (cyboxDoc [at_ "cybox_major_version" "x", at_ "cybox_minor_version" "0"] [])).isOk = true := by
  decide +kernel

/-- C53 for STIX, in documents in which cleaning does not take part of the children of a `ttp:Malware` or
`ttp:Attack_Patterns` element, without malformed versions and types.
Partial: see `C53_left_fails`, `C53_malformed_fails` and `C53_stix12_fails`. -/
theorem C53_stix_partial (w : World) (hd : SimpleDates w) (u : Updater) (rules : List Rule) (nss : Option (List String)) (ty : Bool)
    (V : Node → Prop) (hu : StepRules w u rules nss ty V) (h12 : u.cls.version ≠ "1.2") (o : Options) (k : Nat) (t : Node)
    (ht : ty = true → WellTyped t) (hw : o.checkVersions = true → WellVersioned t) (hf : FreshFrom o.newId k t)
    (hwhole : ∀ c ∈ t.elems, c.e.tag = ⟨some "http://stix.mitre.org/TTP-1", "Malware"⟩ ∨
      c.e.tag = ⟨some "http://stix.mitre.org/TTP-1", "Attack_Patterns"⟩ →
      (∃ d ∈ t.elems, (∃ i, d.pos = i :: c.pos) ∧ Untranslatable rules t d) → Untranslatable rules t c) :
    stepUpdate u o true k t = cleanThenUpdate u o k t :=
  force_eq hu h12 ht hw hf (fun r k' hc => C13_complete_partial w hd u rules nss ty V hu o k k' t r hwhole hc)

/-- A world in which no date is valid. -/
def noDates : World := ⟨fun _ => false, fun _ => none⟩

/-- A package of the wrong version with an untranslatable element beside another element. -/
def docForce10 : Node :=
  stixDoc "1.1" [el nsTTP "Malware_Instance" [xsiType "maec:MAEC4.0InstanceType"] [] (some "m"), el nsTTP "Resources" [at_ "id" "a"]]

theorem docForce10_whole : ∀ c ∈ docForce10.elems, ¬ (c.e.tag = ⟨some "http://stix.mitre.org/TTP-1", "Malware"⟩ ∨
    c.e.tag = ⟨some "http://stix.mitre.org/TTP-1", "Attack_Patterns"⟩) := by
  have h : (docForce10.elems.all fun c => !decide (c.e.tag = ⟨some "http://stix.mitre.org/TTP-1", "Malware"⟩ ∨
    c.e.tag = ⟨some "http://stix.mitre.org/TTP-1", "Attack_Patterns"⟩)) = true := by decide +kernel
  intro c hc
  simpa using List.all_eq_true.1 h c hc

example : SimpleDates noDates ∧ WellTyped docForce10 ∧ WellVersioned docForce10 ∧ FreshFrom oFresh.newId 0 docForce10 ∧
    (stepUpdate stix10 oFresh false 0 docForce10).isOk = false ∧
    ∃ r n, cleanThenUpdate stix10 oFresh 0 docForce10 = .ok (r, n) ∧ r.removed.length = 1 := by
  refine ⟨(fun _ _ h => by cases h), wellTyped_of_eval (by decide +kernel), wellVersioned_of (by decide +kernel),
    fresh_of (by decide +kernel), by decide +kernel, ?_⟩
  obtain ⟨⟨r, n⟩, h, h1⟩ := ok_of_eval (x := cleanThenUpdate stix10 oFresh 0 docForce10)
    (P := fun r => r.1.removed.length = 1) (by decide +kernel)
  exact ⟨r, n, h, h1⟩

/-- C53 fails for the sample: the forced step works, but its cleaning leaves an untranslatable element, so that a second cleaning
removes more and an unforced update of the cleaned document is refused. -/
theorem C53_left_fails : (stepUpdate stix10 o0 true 0 doc10bad).isOk = true ∧ (cleanThenUpdate stix10 o0 0 doc10bad).isOk = false ∧
    ∃ r, clean stix10 o0 0 doc10bad = .ok (r, 0) ∧ ∃ s, clean stix10 o0 0 r.doc = .ok (s, 0) ∧ s.removed.length = 1 := by
  refine ⟨by decide +kernel, by decide +kernel, ?_⟩
  obtain ⟨⟨r, k⟩, h, hk, h1⟩ := ok_of_eval (x := clean stix10 o0 0 doc10bad)
    (P := fun r => r.2 = 0 ∧ (match clean stix10 o0 0 r.1.doc with
      | .ok (s, n) => decide (n = 0 ∧ s.removed.length = 1)
      | _ => false) = true) (by decide +kernel)
  simp only at hk h1
  subst hk
  refine ⟨r, h, ?_⟩
  split at h1
  · next s n hs =>
    obtain ⟨rfl, h2⟩ := of_decide_eq_true h1
    exact ⟨s, hs, h2⟩
  · cases h1

/-- C53: cleaning what was cleaned changes nothing and reports nothing more. -/
theorem C53_again_partial (w : World) (hd : SimpleDates w) (u : Updater) (rules : List Rule) (nss : Option (List String)) (ty : Bool)
    (V : Node → Prop) (hu : StepRules w u rules nss ty V) (o : Options) (k k' : Nat) (t : Node) (r : Result)
    (ht : ty = true → WellTyped t) (hf : FreshFrom o.newId k t)
    (hwhole : ∀ c ∈ t.elems, c.e.tag = ⟨some "http://stix.mitre.org/TTP-1", "Malware"⟩ ∨
      c.e.tag = ⟨some "http://stix.mitre.org/TTP-1", "Attack_Patterns"⟩ →
      (∃ d ∈ t.elems, (∃ i, d.pos = i :: c.pos) ∧ Untranslatable rules t d) → Untranslatable rules t c)
    (hc : clean u o k t = .ok (r, k')) : clean u o k' r.doc = .ok (⟨r.doc, [], []⟩, k') := by
  have h12 : u.cls.version ≠ "1.2" := by
    cases hu with
    | stix12 => cases hc
    | stix101 => exact (show Tables.stix101_version ≠ "1.2" by decide)
    | stix11 => exact (show Tables.stix11_version ≠ "1.2" by decide)
    | _ => decide
  have := cleaned_check hu ht hf hc (C13_complete_partial w hd u rules nss ty V hu o k k' t r hwhole hc)
  exact accepted_clean hu h12 (o := unchecked o) this

example : ∃ r n, clean stix10 oFresh 0 docForce10 = .ok (r, n) ∧ r.removed.length = 1 := by
  obtain ⟨⟨r, n⟩, h, h1⟩ := ok_of_eval (x := clean stix10 oFresh 0 docForce10) (P := fun r => r.1.removed.length = 1) (by decide +kernel)
  exact ⟨r, n, h, h1⟩

/-- C53 for CybOX: one cleaning is enough. -/
theorem C53_again_cybox (o : Options) (k k' : Nat) (t : Node) (r : Result) (hf : FreshFrom o.newId k t)
    (hc : clean cybox201 o k t = .ok (r, k')) : clean cybox201 o k' r.doc = .ok (⟨r.doc, [], []⟩, k') :=
  accepted_clean (w := w0) .cybox201 (by decide) (o := unchecked o)
    (cleaned_check (w := w0) .cybox201 (fun h => by cases h) hf hc (C13_cybox o k k' t r hc))

example : FreshFrom oFresh.newId 0 cybox201bad ∧ ∃ r, clean cybox201 oFresh 0 cybox201bad = .ok (r, 2) ∧ r.doc ≠ cybox201bad := by
  refine ⟨fresh_of (by decide +kernel), ?_⟩
  obtain ⟨⟨r, n⟩, h, h1, h2⟩ := ok_of_eval (x := clean cybox201 oFresh 0 cybox201bad)
    (P := fun r => r.2 = 2 ∧ r.1.doc ≠ cybox201bad) (by decide +kernel)
  simp only at h1
  subst h1
  exact ⟨r, h, h2⟩

end Ramrod
