import Verif.Props.Cli
import Verif.Props.Total
/-!
# C39, C54: which exceptions an update raises
-/

namespace Ramrod
open Samples

/-! ## Helpers -/

theorem chainLoop_other {x : Err} (hx : refusable x = false) (reg : List (String × Updater)) (o : Options) :
    ∀ (vs : List String) (acc : Result) (k : Nat),
    chainLoop reg o false vs acc k = .error x → chainLoop reg o true vs acc k = .error x
  | [], acc, k, h => h
  | v :: vs, acc, k, h => by
    simp only [chainLoop] at h ⊢
    cases hu : assoc reg v with
    | none => rw [hu] at h; exact h
    | some u =>
      rw [hu] at h
      simp only [stepUpdate] at h ⊢
      cases ht : tryUpdate u o acc.doc with
      | error y =>
        rw [ht] at h
        simp only [Bool.and_false, Bool.false_eq_true, if_false] at h
        cases h
        simp [hx]
      | ok d =>
        rw [ht] at h
        simp only at h ⊢
        exact chainLoop_other hx reg o vs _ _ h

theorem not_reported {x : Err} (h : ¬ Reported x) : refusable x = false := by
  cases hr : refusable x with
  | false => rfl
  | true => exact absurd (reported_iff.1 hr) h

/-! ## C39 -/

/-- C39, the other exceptions: force makes a difference only for refusals.  An unforced update that raises anything else than
`UpdateError`, `UnknownVersionError` or `InvalidVersionError` raises the same under force. -/
theorem C39_other_errors (w : World) (t : Node) (from_ to_ : Option String) (o : Options) (k : Nat) (x : Err) (hx : ¬ Reported x)
    (h : update w t from_ to_ o false k = .error x) : update w t from_ to_ o true k = .error x := by
  have hr := not_reported hx
  have chain : ∀ vs reg f g, runChain vs reg t f g o false k = .error x → runChain vs reg t f g o true k = .error x := by
    intro vs reg f g h
    simp only [runChain] at h ⊢
    cases hv : (validateVersions f g vs : Except Err _) with
    | error y => rw [hv] at h; exact h
    | ok q => rw [hv] at h; exact chainLoop_other hr reg o _ _ k h
  simp only [update] at h ⊢
  cases hroot : t.root? with
  | none => rw [hroot] at h; exact h
  | some e =>
    rw [hroot] at h
    simp only at h ⊢
    by_cases hn : e.tag.name = "STIX_Package"
    · simp only [hn, if_true] at h ⊢; exact chain _ _ _ _ h
    · simp only [hn, if_false] at h ⊢
      by_cases hn2 : e.tag.name = "Observables"
      · simp only [hn2, if_true] at h ⊢
        cases hf : cyboxFrom t from_ with
        | error y => rw [hf] at h; exact h
        | ok f =>
          rw [hf] at h
          simp only [cyboxUpdate] at h ⊢
          cases hf2 : cyboxFrom t f with
          | error y => rw [hf2] at h; exact h
          | ok f2 => rw [hf2] at h; exact chain _ _ _ _ h
      · simp only [hn2, if_false] at h ⊢; exact h

/-- A malformed version raises `ValueError`, forced or not. -/
example : ¬ Reported (.valueError : Err) ∧
    update w0 (stixDoc "one" []) (some "1.1.1") none o0 false 0 = .error .valueError :=
  And.intro (fun h => by cases h) (by decide +kernel)

/-! ## C54 -/

/-- C54: an update of a document in order returns a result or raises one of the documented exceptions, whatever versions are
asked for and whatever the root is.
Partial: the documents have to be in order (`InOrder`, `HasValues`); for the others see the negations of C12, which are
unforced updates as well. -/
theorem C54_documented_partial (w : World) (e : Elem) (ks : List Node) (from_ to_ : Option String) (o : Options) (k : Nat)
    (ps : List String) (hi : InOrder o.checkVersions ps (.elem e ks)) (hv : HasValues (.elem e ks)) (x : Err)
    (h : update w (.elem e ks) from_ to_ o false k = .error x) : Reported x := by
  by_cases hx : Reported x
  · exact hx
  exfalso
  have hf := C39_other_errors w _ from_ to_ o k x hx h
  by_cases hn : e.tag.name = "STIX_Package"
  · rw [(C01_dispatch w e ks from_ to_ o false k).1 hn] at h
    rw [(C01_dispatch w e ks from_ to_ o true k).1 hn] at hf
    obtain ⟨r1, r2, r3, r4, _⟩ := C02_stix_range w (.elem e ks) from_ to_ o true k _ _ rfl rfl
    cases hs : inForce from_ (stixRootVersion (.elem e ks)) with
    | none => rw [r1 (Or.inl hs)] at hf; cases hf; exact hx .unknown
    | some s =>
      obtain ⟨g, hg⟩ : ∃ g, inForce to_ (some "1.2.1") = some g := by
        unfold inForce; split <;> exact ⟨_, rfl⟩
      by_cases h0 : s = ""
      · subst h0; rw [r1 (Or.inr hs)] at hf; cases hf; exact hx .unknown
      by_cases hsm : s ∈ stixReleases
      · by_cases hgm : g ∈ stixReleases
        · by_cases hold : Older stixReleases s g
          · by_cases h12 : s = "1.2"
            · subst h12
              have hg' : g = "1.2.1" := by
                have := (older_iff stix_nodup hsm hgm).1 hold
                have all : ∀ g ∈ stixReleases, stixReleases.idxOf "1.2" < stixReleases.idxOf g → g = "1.2.1" := by decide
                exact all g hgm this
              subst hg'
              rw [stixUpdate_accepted w _ o false k hs hg hold] at h
              have a5 : assoc (stixUpdaters w) "1.2" = some stix12 := by simp [stixUpdaters, assoc]
              have h : chainLoop (stixUpdaters w) o false ["1.2"] _ _ = _ := h
              simp only [chainLoop, a5, stepUpdate, tryUpdate] at h
              cases hc : stix12.check o (.elem e ks) with
              | error y =>
                rw [hc] at h
                simp only [Bool.and_false, Bool.false_eq_true, if_false] at h
                cases h
                exact hx (reported_iff.1 (check_refuses (w := w) .stix12 (sound_of' hi) hc))
              | ok u =>
                cases u
                rw [hc] at h
                cases h
            · obtain ⟨r, k', hr⟩ := C12_stix_partial w (.elem e ks) o k hs hg hold ps hi (fun _ => hv) (fun h => absurd h h12)
              rw [hr] at hf; cases hf
          · rw [r4 s g hs hg hsm hgm hold] at hf; cases hf; exact hx (.invalid _ _ _)
        · rw [r3 s g hs hsm hg hgm] at hf; cases hf; exact hx (.invalid _ _ _)
      · rw [r2 s hs h0 hsm] at hf; cases hf; exact hx (.invalid _ _ _)
  · by_cases hn2 : e.tag.name = "Observables"
    · rw [(C01_dispatch w e ks from_ to_ o true k).2.1 hn2] at hf
      obtain ⟨r1, r2, r3, r4, _⟩ := C02_cybox_range (.elem e ks) from_ to_ o true k _ rfl
      obtain ⟨g, hg⟩ : ∃ g, inForce to_ (some "2.1") = some g := by
        unfold inForce; split <;> exact ⟨_, rfl⟩
      cases hs : cyboxSource (.elem e ks) from_ with
      | error y =>
        rw [r1 y hs] at hf
        cases hf
        refine hx ?_
        unfold cyboxSource at hs
        split at hs
        · cases hs
        · unfold cyboxRootVersion at hs
          cases hg : cyboxGetVersion e with
          | error z =>
            simp only [Node.root?, hg] at hs
            cases hs
            rw [getVersion_error hg]
            exact .unknown
          | ok v => simp only [Node.root?, hg] at hs; cases hs
      | ok q =>
        by_cases hq : q = none ∨ q = some ""
        · simp only [cyboxUpdate, cyboxFrom_eq, hs, runChain, validateVersions_source hq] at hf
          cases hf; exact hx .unknown
        cases q with
        | none => exact hq (Or.inl rfl)
        | some s =>
          have h0 : s ≠ "" := fun e => hq (Or.inr (e ▸ rfl))
          by_cases hsm : s ∈ cyboxReleases
          · by_cases hgm : g ∈ cyboxReleases
            · by_cases hold : Older cyboxReleases s g
              · obtain ⟨r, k', hr⟩ := C12_cybox_partial (.elem e ks) o k hs hg hold ps hi (fun _ => hv)
                rw [hr] at hf; cases hf
              · rw [r4 s g hs hg hsm hgm hold] at hf; cases hf; exact hx (.invalid _ _ _)
            · rw [r3 s g hs hsm hg hgm] at hf; cases hf; exact hx (.invalid _ _ _)
          · rw [r2 s hs h0 hsm] at hf; cases hf; exact hx (.invalid _ _ _)
    · rw [(C01_dispatch w e ks from_ to_ o true k).2.2 hn hn2] at hf
      cases hf
      exact hx (.update _ _)

/-- The document of C12 with something of everything: refused, so with a documented exception. -/
example : ∃ x, update w0 docForced none none o0 false 0 = .error x ∧ Reported x := by
  obtain ⟨x, hx, _⟩ := err_of_eval (P := fun _ => true) (x := update w0 docForced none none o0 false 0) (by decide +kernel)
  exact ⟨x, hx, C54_documented_partial w0 _ _ none none o0 0 ["maec", "capec", "stixVocabs"]
    (inOrder_of (t := docForced) (by decide +kernel) _) (hasValues_of (t := docForced) (by decide +kernel)) x hx⟩

/-- C54 fails for versions that are no versions: `ValueError`. -/
theorem C54_malformed_version_fails :
    (∃ x, update w0 (stixDoc "1.0" [el nsStix "Observables" [at_ "cybox_major_version" "2", at_ "cybox_minor_version" "x"] []])
      none none o0 false 0 = .error x ∧ ¬ Reported x) ∧
    ∃ x, update w0 (stixDoc "one" []) (some "1.1.1") none o0 false 0 = .error x ∧ ¬ Reported x :=
  ⟨⟨.valueError, by decide +kernel, fun h => by cases h⟩, .valueError, by decide +kernel, fun h => by cases h⟩

/-- C54 fails for `xsi:type` values without a colon (`ValueError`) or with an unknown prefix (`KeyError`). -/
theorem C54_malformed_type_fails :
    (∃ x, update w0 (stixDoc "1.1.1" [el nsStix "X" [xsiType "Foo"] []]) none none o0 false 0 = .error x ∧ ¬ Reported x) ∧
    ∃ x, update w0 (stixDoc "1.1.1" [el nsStix "X" [xsiType "foo:Bar"] []]) none none o0 false 0 = .error x ∧ ¬ Reported x :=
  ⟨⟨.valueError, by decide +kernel, fun h => by cases h⟩, .keyError, by decide +kernel, fun h => by cases h⟩

/-- C54 fails for the two vocabularies with a tuple as reference (`TypeError`). -/
theorem C54_reference_fails : (∃ x, update w0 docPlanning none none o0 false 0 = .error x ∧ ¬ Reported x) ∧
    ∃ x, update w0 docRelationship none none o0 false 0 = .error x ∧ ¬ Reported x :=
  ⟨⟨.typeError, by decide +kernel, fun h => by cases h⟩, .typeError, by decide +kernel, fun h => by cases h⟩

/-- C54 fails for `DNT` without a value (`IndexError`), for comments among contributors (`AttributeError`) and for sources with
markup characters (`XMLSyntaxError`). -/
theorem C54_content_fails : (∃ x, update w0 docNoValue none none o0 false 0 = .error x ∧ ¬ Reported x) ∧
    (∃ x, update w0 docContributorsComment none none o0 false 0 = .error x ∧ ¬ Reported x) ∧
    ∃ x, update w0 docMarkupSource none none o0 false 0 = .error x ∧ ¬ Reported x :=
  ⟨⟨.indexError, by decide +kernel, fun h => by cases h⟩, ⟨.attributeError, by decide +kernel, fun h => by cases h⟩,
   .xmlSyntax, by decide +kernel, fun h => by cases h⟩

end Ramrod
