import Verif.Props.Lost
import Verif.Props.Refuse
import Verif.Props.NewIds
/-!
# C75: A forced update that reports nothing did not need force
-/

namespace Ramrod

open Samples

/-! ## Helpers: checks -/

/-- No error with a list of untranslatable content. -/
def NoList {α : Type} (x : Except Err α) : Prop := ∀ d g, x ≠ .error (.update d g)

theorem noList_of_noRefuse {α : Type} {x : Except Err α} (h : NoRefuse x) : NoList x := fun _ _ e => by
  have := h _ e
  simp [refusable] at this

theorem noList_equal (a b : String) : NoList (isVersionEqual a b : Except Err Bool) := by
  intro d g h
  unfold isVersionEqual at h
  split at h <;> cases h

theorem noList_stix (u : Cls) (t : Node) : NoList (stixCheckVersion u t) := by
  intro d g h
  unfold stixCheckVersion at h
  split at h
  · cases h
  · split at h
    · cases h
    · split at h
      · cases h
      · split at h
        · next x hx => cases h; exact noList_equal _ _ _ _ hx
        · cases h
        · cases h

theorem noList_cyboxGet (e : Elem) : NoList (cyboxGetVersion e) := by
  intro d g h
  simp only [cyboxGetVersion] at h
  repeat' (split at h)
  all_goals simp at h

theorem noList_cybox (u : Cls) (t : Node) : NoList (cyboxCheckVersion u t) := by
  unfold cyboxCheckVersion
  induction u.rootNodes t with
  | nil => intro d g h; cases h
  | cons c cs ih =>
    intro d g h
    unfold cyboxCheckRoots at h
    split at h
    · next x hx => cases h; exact noList_cyboxGet _ _ _ hx
    · split at h
      · next x hx => cases h; exact noList_equal _ _ _ _ hx
      · exact ih d g h
      · cases h

theorem noList_both (u u' : Cls) (t : Node) : NoList (match stixCheckVersion u t with
      | .error x => .error x
      | .ok () => cyboxCheckVersion u' t) := by
  intro d g h
  split at h
  · next x hx => cases h; exact noList_stix _ _ _ _ hx
  · exact noList_cybox _ _ _ _ h

theorem noList_if {b : Bool} {x : Except Err Unit} (h : NoList x) : NoList (if b then x else .ok ()) := by
  intro d g e
  split at e
  · exact h d g e
  · cases e

theorem noList_find (fs : List Finder) (t : Node) : NoList (findAll fs t) := noList_of_noRefuse (noRefuse_findAll fs t)

/-- A step refuses content only if it finds some. -/
theorem refused_content {w : World} {u : Updater} (hu : Registered w u) {o : Options} {t : Node} {d : Option (List Ctx)}
    {g : Option (List (String × List Ctx))} (h : u.check o t = .error (.update d g)) :
    (∃ l, u.disallowed t = .ok (some l) ∧ l ≠ []) ∨ ∃ gs, u.duplicates t = some gs ∧ gs ≠ [] := by
  cases hu with
  | cybox20 => exact absurd h (noList_if (noList_cybox _ _) d g)
  | stix11 => exact absurd h (noList_if (noList_stix _ _) d g)
  | stix111 => exact absurd h (noList_if (noList_stix _ _) d g)
  | stix12 => exact absurd h (noList_if (noList_stix _ _) d g)
  | stix10 =>
    simp only [stix10, stix10Check] at h
    split at h
    · next x hx => cases h; exact absurd hx (noList_if (noList_both _ _ _) d g)
    · split at h
      · next x hx => cases h; exact absurd hx (noList_find _ _ d g)
      · next l hl =>
        split at h
        · cases h
        · next he => exact Or.inl ⟨l, by simp only [stix10, hl]; rfl, fun e => he (by rw [e]; rfl)⟩
  | cybox201 =>
    simp only [cybox201, cybox201Check] at h
    split at h
    · next x hx => cases h; exact absurd hx (noList_if (noList_cybox _ _) d g)
    · split at h
      · next x hx => cases h; exact absurd hx (noList_find _ _ d g)
      · next l hl =>
        split at h
        · cases h
        · next he =>
          by_cases hl0 : l = []
          · refine Or.inr ⟨_, rfl, fun e => he ?_⟩
            rw [hl0, e]; rfl
          · exact Or.inl ⟨l, by simp only [cybox201, hl]; rfl, hl0⟩
  | stix101 =>
    simp only [stix101, stix101Check] at h
    split at h
    · next x hx => cases h; exact absurd hx (noList_if (noList_both _ _ _) d g)
    · split at h
      · next x hx =>
        cases h
        simp only [stix101GetDisallowed] at hx
        split at hx
        · next x hx' => cases hx; exact absurd hx' (noList_find _ _ d g)
        · split at hx
          · next x hx' => cases hx; exact absurd hx' (noList_find _ _ d g)
          · cases hx
      · next l hl =>
        split at h
        · cases h
        · next he =>
          by_cases hl0 : l = []
          · refine Or.inr ⟨_, rfl, fun e => he ?_⟩
            rw [hl0, e]; rfl
          · exact Or.inl ⟨l, by simp only [stix101, hl]; rfl, hl0⟩

/-- Without version checks there is no refusal for a version. -/
theorem off_no_version {w : World} {u : Updater} (hu : Registered w u) {o : Options} (ho : o.checkVersions = false) {t : Node} {x : Err}
    (h : u.check o t = .error x) : ¬ VersionRefusal x := by
  have hno : ∀ fs, findAll fs t = .error x → ¬ VersionRefusal x := by
    intro fs hx hv
    have := noRefuse_findAll fs t x hx
    rcases hv with rfl | ⟨n, a, b, rfl⟩ <;> simp [refusable] at this
  cases hu with
  | cybox20 => simp [cybox20, cybox20Check, ho] at h
  | stix11 => simp [stix11, stix11Check, ho] at h
  | stix111 => simp [stix111, stix111Check, ho] at h
  | stix12 => simp [stix12, stix12Check, ho] at h
  | stix10 =>
    simp only [stix10, stix10Check, ho, Bool.false_eq_true, if_false] at h
    split at h
    · next x hx => cases h; exact hno _ hx
    · split at h
      · cases h
      · cases h; rintro (h | ⟨_, _, _, h⟩) <;> cases h
  | cybox201 =>
    simp only [cybox201, cybox201Check, ho, Bool.false_eq_true, if_false] at h
    split at h
    · next x hx => cases h; exact hno _ hx
    · split at h
      · cases h
      · cases h; rintro (h | ⟨_, _, _, h⟩) <;> cases h
  | stix101 =>
    simp only [stix101, stix101Check, ho, Bool.false_eq_true, if_false] at h
    split at h
    · next x hx =>
      cases h
      simp only [stix101GetDisallowed] at hx
      split at hx
      · next x hx' => cases hx; exact hno _ hx'
      · split at hx
        · next x hx' => cases hx; exact hno _ hx'
        · cases hx
    · split at h
      · cases h
      · cases h; rintro (h | ⟨_, _, _, h⟩) <;> cases h

/-- Cleaning that finds something reports something. -/
theorem clean_reports {w : World} {u : Updater} (hu : Registered w u) {o : Options} {k k' : Nat} {t : Node} {r : Result}
    (hc : clean u o k t = .ok (r, k'))
    (h : (∃ l, u.disallowed t = .ok (some l) ∧ l ≠ []) ∨ ∃ gs, u.duplicates t = some gs ∧ gs ≠ []) :
    r.removed ≠ [] ∨ r.remapped ≠ [] := by
  rcases h with ⟨l, hl, hne⟩ | ⟨gs, hg, hne⟩
  · obtain ⟨rules, nss, ty, V, hr⟩ := registered_rules hu
    obtain ⟨F, l', ν, n, _, hl', _, _, _, h4, _⟩ := clean_spec hr hc
    have hrep := disallowed_spec hr hl
    left
    cases l with
    | nil => exact absurd rfl hne
    | cons c l =>
      have hcl : c ∈ l' := (reportsAll_mem hl' c).2 ((reportsAll_mem hrep c).1 (by simp))
      rw [h4]
      cases l' with
      | nil => cases hcl
      | cons d l' => simp [copies]
  · right
    obtain ⟨dis, _, ⟨h0, _⟩ | ⟨g, hg', _, rfl⟩⟩ := clean_cut hc
    · rw [h0] at hg; cases hg
    · rw [hg'] at hg
      cases hg
      cases gs with
      | nil => exact absurd rfl hne
      | cons p g => simp [cleanDuplicates]

theorem quiet_step {w : World} {u : Updater} (hu : Registered w u) {o : Options} {k k' : Nat} {t : Node} {r : Result}
    (h : stepUpdate u o true k t = .ok (r, k')) (h1 : r.removed = []) (h2 : r.remapped = []) :
    stepUpdate u o false k t = .ok (r, k') ∨
      ∃ x, stepUpdate u o false k t = .error x ∧ VersionRefusal x ∧ o.checkVersions = true := by
  simp only [stepUpdate] at h ⊢
  split at h
  · exact Or.inl h
  · next x hx =>
    split at h
    · next hf =>
      simp only [Bool.and_true] at hf
      simp only [Bool.and_false, Bool.false_eq_true, if_false]
      refine Or.inr ⟨x, rfl, ?_⟩
      have hck : u.check o t = .error x := by
        simp only [tryUpdate] at hx
        split at hx
        · next y hy => cases hx; exact hy
        · rw [noRefuse_update hu _ _ _ hx] at hf; cases hf
      have hv : VersionRefusal x := by
        cases x with
        | unknownVersion => exact Or.inl rfl
        | invalidVersion n a b => exact Or.inr ⟨n, a, b, rfl⟩
        | update d g =>
          exfalso
          simp only [forceUpdate] at h
          split at h
          · cases h
          · next r1 k1 hc =>
            split at h
            · cases h
            · cases h
              rcases clean_reports hu hc (refused_content hu hck) with h | h
              · exact h h1
              · exact h h2
        | _ => simp [refusable] at hf
      refine ⟨hv, ?_⟩
      cases ho : o.checkVersions with
      | true => rfl
      | false => exact absurd hv (off_no_version hu ho hck)
    · cases h

theorem quiet_chain {w : World} {reg : List (String × Updater)} (hreg : ∀ v u, assoc reg v = some u → Registered w u) {o : Options} :
    ∀ (vs : List String) (acc : Result) (k : Nat) (r : Result) (k' : Nat),
    chainLoop reg o true vs acc k = .ok (r, k') → r.removed = [] → r.remapped = [] →
    (acc.removed = [] ∧ acc.remapped = []) ∧ (chainLoop reg o false vs acc k = .ok (r, k') ∨
      ∃ x, chainLoop reg o false vs acc k = .error x ∧ VersionRefusal x ∧ o.checkVersions = true)
  | [], acc, k, r, k', h, h1, h2 => by
    simp only [chainLoop, Except.ok.injEq, Prod.mk.injEq] at h ⊢
    obtain ⟨rfl, rfl⟩ := h
    exact ⟨⟨h1, h2⟩, Or.inl ⟨rfl, rfl⟩⟩
  | v :: vs, acc, k, r, k', h, h1, h2 => by
    simp only [chainLoop] at h ⊢
    split at h
    · cases h
    · next u hu =>
      split at h
      · cases h
      · next r1 k1 hs =>
        obtain ⟨⟨p, q⟩, rest⟩ := quiet_chain hreg vs _ k1 r k' h h1 h2
        have p' := List.append_eq_nil_iff.1 p
        have q1 : acc.remapped = [] := Classical.byContradiction fun hn => NewIds.dictUpdate_ne _ _ (Or.inl hn) q
        have q2 : r1.remapped = [] := Classical.byContradiction fun hn => NewIds.dictUpdate_ne _ _ (Or.inr hn) q
        refine ⟨⟨p'.1, q1⟩, ?_⟩
        rcases quiet_step (hreg v u hu) hs p'.2 q2 with hq | ⟨x, hq, hv⟩
        · rw [hq]; exact rest
        · rw [hq]; exact Or.inr ⟨x, rfl, hv⟩

/-! ## C75 -/

/-- C75: if a forced update reports neither a removed node nor a new id, the same update without force gives the same result, unless
it is refused for a version, which needs the version checks. It is never refused for its content. -/
theorem C75_quiet (w : World) (t : Node) (from_ to_ : Option String) (o : Options) (k k' : Nat) (r : Result)
    (h : update w t from_ to_ o true k = .ok (r, k')) (h1 : r.removed = []) (h2 : r.remapped = []) :
    update w t from_ to_ o false k = .ok (r, k') ∨
      ∃ x, update w t from_ to_ o false k = .error x ∧ VersionRefusal x ∧ o.checkVersions = true := by
  have chain : ∀ vs reg f g, (∀ v u, assoc reg v = some u → Registered w u) → runChain vs reg t f g o true k = .ok (r, k') →
      runChain vs reg t f g o false k = .ok (r, k') ∨
        ∃ x, runChain vs reg t f g o false k = .error x ∧ VersionRefusal x ∧ o.checkVersions = true := by
    intro vs reg f g hreg h
    simp only [runChain] at h ⊢
    split at h
    · cases h
    · exact (quiet_chain hreg _ _ k r k' h h1 h2).2
  simp only [update] at h ⊢
  split at h
  · cases h
  · split at h
    · next hn =>
      simp only [hn, if_true]
      exact chain _ _ _ _ (fun _ _ => registered_stix) h
    · next hn =>
      simp only [hn, if_false]
      split at h
      · next hn' =>
        simp only [hn', if_true]
        split at h
        · cases h
        · next f hf =>
          simp only [cyboxUpdate] at h ⊢
          split at h
          · cases h
          · exact chain _ _ _ _ (fun _ _ => registered_cybox) h
      · cases h

/-- C75 without version checks: a forced update reports nothing exactly if force was not needed. -/
theorem C75_checks_off (w : World) (t : Node) (from_ to_ : Option String) (o : Options) (k k' : Nat) (r : Result)
    (ho : o.checkVersions = false) (h : update w t from_ to_ o true k = .ok (r, k')) :
    (r.removed = [] ∧ r.remapped = []) ↔ update w t from_ to_ o false k = .ok (r, k') := by
  constructor
  · rintro ⟨h1, h2⟩
    rcases C75_quiet w t from_ to_ o k k' r h h1 h2 with h | ⟨x, _, _, h⟩
    · exact h
    · rw [ho] at h; cases h
  · intro h
    exact ⟨(C07_unforced_removes_nothing w t from_ to_ o k r k' h).1, (C07_unforced_removes_nothing w t from_ to_ o k r k' h).2.1⟩

/-! ### Cases that meet the hypotheses -/

/-- A document of the right version: nothing is reported. -/
example : ∃ r, update w0 doc111 none none o0 true 0 = .ok r ∧ r.1.removed = [] ∧ r.1.remapped = [] := ok_of_eval (by decide +kernel)

/-- A document with content that has to go and ids that have to change: without version checks, force is needed and reports it. -/
example : (update w0 cybox201bad none none { o0 with checkVersions := false } false 0).isOk = false ∧
    ∃ r, update w0 cybox201bad none none { o0 with checkVersions := false } true 0 = .ok r ∧
      r.1.removed.length = 1 ∧ r.1.remapped.length = 1 :=
  ⟨by decide +kernel, ok_of_eval (by decide +kernel)⟩

/-! ### Why the exception is needed -/

/-- A document with an inner list of observables of another version. -/
def docInnerOld : Node := cyboxDoc v201 [el nsCyboxCore "Observables" v20 []]

/-- A forced update that reports nothing, of a document that is refused without force: for a version. -/
theorem C75_version_needed : (∃ x, update w0 docInnerOld none none o0 false 0 = .error x ∧ VersionRefusal x) ∧
    ∃ r, update w0 docInnerOld none none o0 true 0 = .ok r ∧ r.1.removed = [] ∧ r.1.remapped = [] := by
  refine ⟨?_, ok_of_eval (by decide +kernel)⟩
  obtain ⟨x, hx, hp⟩ := err_of_eval (x := update w0 docInnerOld none none o0 false 0)
    (P := fun x => match x with | .invalidVersion _ _ _ => true | _ => false) (by decide +kernel)
  refine ⟨x, hx, ?_⟩
  cases x with
  | invalidVersion n a b => exact Or.inr ⟨n, a, b, rfl⟩
  | _ => simp at hp

end Ramrod
