import Verif.Props.Quiet
import Verif.Props.Forced
/-!
# C77: The version check accepts or refuses, and changes nothing else
-/

namespace Ramrod

open Samples

/-! ## Helpers: checks -/

/-- What the comparison of a version can raise. -/
def VersionTrouble (x : Err) : Prop := VersionRefusal x ∨ x = .valueError

theorem trouble_equal {a b : String} {x : Err} (h : isVersionEqual a b = .error x) : VersionTrouble x := by
  unfold isVersionEqual at h
  split at h <;> cases h
  exact Or.inr rfl

theorem trouble_stix {u : Cls} {t : Node} {x : Err} (h : stixCheckVersion u t = .error x) : VersionTrouble x := by
  unfold stixCheckVersion at h
  split at h
  · cases h
  · split at h
    · cases h; exact Or.inl (Or.inl rfl)
    · split at h
      · cases h; exact Or.inl (Or.inl rfl)
      · split at h
        · next y hy => cases h; exact trouble_equal hy
        · cases h
        · cases h; exact Or.inl (Or.inr ⟨_, _, _, rfl⟩)

theorem trouble_cybox {u : Cls} {t : Node} {x : Err} (h : cyboxCheckVersion u t = .error x) : VersionTrouble x := by
  unfold cyboxCheckVersion at h
  revert h
  induction u.rootNodes t with
  | nil => intro h; cases h
  | cons c cs ih =>
    intro h
    unfold cyboxCheckRoots at h
    split at h
    · next y hy =>
      cases h
      simp only [cyboxGetVersion] at hy
      split at hy
      · cases hy; exact Or.inl (Or.inl rfl)
      · split at hy <;> cases hy
    · split at h
      · next y hy => cases h; exact trouble_equal hy
      · exact ih h
      · cases h; exact Or.inl (Or.inr ⟨_, _, _, rfl⟩)

/-- A check with versions is the check without them, or fails for a version. -/
theorem check_parts {w : World} {u : Updater} (hu : Registered w u) (o : Options) (t : Node) :
    u.check o t = u.check (unchecked o) t ∨ ∃ x, VersionTrouble x ∧ u.check o t = .error x := by
  cases ho : o.checkVersions with
  | false =>
    left
    have : unchecked o = o := by cases o; simp_all [unchecked]
    rw [this]
  | true =>
    cases hu with
    | cybox20 =>
      simp only [cybox20, cybox20Check, ho, unchecked, if_true, Bool.false_eq_true, if_false]
      cases hx : cyboxCheckVersion (cybox20Cls Tables.cybox20_nsmap xpathObservables) t with
      | ok => exact Or.inl rfl
      | error x => exact Or.inr ⟨x, trouble_cybox hx, rfl⟩
    | cybox201 =>
      simp only [cybox201, cybox201Check, ho, unchecked, if_true, Bool.false_eq_true, if_false]
      cases hx : cyboxCheckVersion (cybox201Cls Tables.cybox201_nsmap xpathObservables) t with
      | ok => exact Or.inl rfl
      | error x => exact Or.inr ⟨x, trouble_cybox hx, rfl⟩
    | stix10 =>
      simp only [stix10, stix10Check, ho, unchecked, if_true, Bool.false_eq_true, if_false]
      cases hx : stixCheckVersion stix10Cls t with
      | error x => exact Or.inr ⟨x, trouble_stix hx, rfl⟩
      | ok =>
        cases hy : cyboxCheckVersion stix10Cybox t with
        | ok => exact Or.inl rfl
        | error x => exact Or.inr ⟨x, trouble_cybox hy, rfl⟩
    | stix101 =>
      simp only [stix101, stix101Check, ho, unchecked, if_true, Bool.false_eq_true, if_false]
      cases hx : stixCheckVersion (stix101Cls w) t with
      | error x => exact Or.inr ⟨x, trouble_stix hx, rfl⟩
      | ok =>
        cases hy : cyboxCheckVersion stix101Cybox t with
        | ok => exact Or.inl rfl
        | error x => exact Or.inr ⟨x, trouble_cybox hy, rfl⟩
    | stix11 =>
      simp only [stix11, stix11Check, ho, unchecked, if_true, Bool.false_eq_true, if_false]
      cases hx : stixCheckVersion (stix11Cls w) t with
      | ok => exact Or.inl rfl
      | error x => exact Or.inr ⟨x, trouble_stix hx, rfl⟩
    | stix111 =>
      simp only [stix111, stix111Check, ho, unchecked, if_true, Bool.false_eq_true, if_false]
      cases hx : stixCheckVersion stix111Cls t with
      | ok => exact Or.inl rfl
      | error x => exact Or.inr ⟨x, trouble_stix hx, rfl⟩
    | stix12 =>
      simp only [stix12, stix12Check, ho, unchecked, if_true, Bool.false_eq_true, if_false]
      cases hx : stixCheckVersion stix12Cls t with
      | ok => exact Or.inl rfl
      | error x => exact Or.inr ⟨x, trouble_stix hx, rfl⟩

/-- A document that can be cleaned is at most refused for its content. -/
theorem cleanable_check {w : World} {u : Updater} (hu : Registered w u) {o : Options} {k : Nat} {t : Node} {q : Result × Nat}
    (hc : clean u o k t = .ok q) {y : Err} (h : u.check (unchecked o) t = .error y) : refusable y = true := by
  obtain ⟨r, k'⟩ := q
  obtain ⟨dis, hd, _⟩ := clean_cut hc
  cases hu with
  | cybox20 => simp [cybox20, cybox20Check, unchecked] at h
  | stix11 => simp [stix11, stix11Check, unchecked] at h
  | stix111 => simp [stix111, stix111Check, unchecked] at h
  | stix12 => simp [stix12, stix12Check, unchecked] at h
  | stix10 =>
    simp only [stix10, stix10Check, unchecked, Bool.false_eq_true, if_false] at h
    split at h
    · next x hx => simp only [stix10, hx, Except.map] at hd; cases hd
    · split at h
      · cases h
      · cases h; rfl
  | cybox201 =>
    simp only [cybox201, cybox201Check, unchecked, Bool.false_eq_true, if_false] at h
    split at h
    · next x hx => simp only [cybox201, hx, Except.map] at hd; cases hd
    · split at h
      · cases h
      · cases h; rfl
  | stix101 =>
    simp only [stix101, stix101Check, unchecked, Bool.false_eq_true, if_false] at h
    split at h
    · next x hx => simp only [stix101, hx, Except.map] at hd; cases hd
    · split at h
      · cases h
      · cases h; rfl

theorem only_12 {w : World} {u : Updater} (hu : Registered w u) :
    u.cls.version ≠ "1.2" ∨ ∀ o k t, clean u o k t = .error .notImplemented := by
  cases hu with
  | stix12 => exact Or.inr fun _ _ _ => rfl
  | stix101 => exact Or.inl (show Tables.stix101_version ≠ "1.2" by decide)
  | stix11 => exact Or.inl (show Tables.stix11_version ≠ "1.2" by decide)
  | _ => exact Or.inl (by decide)

/-! ## Helpers: steps -/

theorem force_unchecked {w : World} {u : Updater} (hu : Registered w u) (o : Options) (k : Nat) (t : Node) :
    forceUpdate u (unchecked o) k t = forceUpdate u o k t := by
  have : clean u (unchecked o) k t = clean u o k t := rfl
  simp only [forceUpdate, this, update_unchecked hu o]

theorem check_same_step {w : World} {u : Updater} (hu : Registered w u) {o : Options} (force : Bool) (k : Nat) {t : Node}
    (h : u.check o t = u.check (unchecked o) t) : stepUpdate u o force k t = stepUpdate u (unchecked o) force k t := by
  simp only [stepUpdate, tryUpdate, h, update_unchecked hu o, force_unchecked hu o]

/-- Forcing a document that is accepted without version checks only updates it. -/
theorem force_accepted {w : World} {u : Updater} (hu : Registered w u) {o : Options} {k : Nat} {t : Node}
    (h12 : u.cls.version ≠ "1.2") (h : u.check (unchecked o) t = .ok ()) (force : Bool) :
    forceUpdate u o k t = stepUpdate u (unchecked o) force k t := by
  obtain ⟨rules, nss, ty, V, hr⟩ := registered_rules hu
  have hc : clean u o k t = .ok (⟨t, [], []⟩, k) := accepted_clean hr h12 (o := unchecked o) h
  simp only [forceUpdate, hc, stepUpdate, tryUpdate, h, update_unchecked hu o]
  cases hx : u.update o t with
  | ok d => rfl
  | error x =>
    have := noRefuse_update hu _ _ _ hx
    simp [this]

theorem step_off {w : World} {u : Updater} (hu : Registered w u) {o : Options} {force : Bool} {k : Nat} {t : Node} {p : Result × Nat}
    (h : stepUpdate u o force k t = .ok p) : stepUpdate u (unchecked o) force k t = .ok p := by
  rcases check_parts hu o t with hs | ⟨x, _, hx⟩
  · rw [← check_same_step hu force k hs]; exact h
  · simp only [stepUpdate, tryUpdate, hx] at h
    split at h
    · next hf =>
      obtain ⟨_, rfl⟩ := Bool.and_eq_true_iff.1 hf
      cases hc : clean u o k t with
      | error y => simp only [forceUpdate, hc] at h; cases h
      | ok q =>
        cases hk : u.check (unchecked o) t with
        | ok =>
          rcases only_12 hu with h12 | h12
          · rw [← force_accepted hu h12 hk]; exact h
          · rw [h12] at hc; cases hc
        | error y =>
          simp only [stepUpdate, tryUpdate, hk, cleanable_check hu hc hk, Bool.and_self, if_true, force_unchecked hu o]
          exact h
    · cases h

/-- The ways in which a version check can stop an update. -/
def StoppedByVersion (force : Bool) (x : Err) : Prop :=
  x = .valueError ∨ (force = false ∧ VersionRefusal x) ∨ (force = true ∧ x = .notImplemented)

theorem step_on {w : World} {u : Updater} (hu : Registered w u) {o : Options} {force : Bool} {k : Nat} {t : Node} {p : Result × Nat}
    (h : stepUpdate u (unchecked o) force k t = .ok p) :
    stepUpdate u o force k t = .ok p ∨ ∃ x, stepUpdate u o force k t = .error x ∧ StoppedByVersion force x := by
  rcases check_parts hu o t with hs | ⟨x, hv, hx⟩
  · rw [check_same_step hu force k hs]; exact Or.inl h
  · cases force with
    | false =>
      refine Or.inr ⟨x, by simp only [stepUpdate, tryUpdate, hx, Bool.and_false, Bool.false_eq_true, if_false], ?_⟩
      rcases hv with hv | rfl
      · exact Or.inr (Or.inl ⟨rfl, hv⟩)
      · exact Or.inl rfl
    | true =>
      rcases hv with hv | rfl
      · have e : stepUpdate u o true k t = forceUpdate u o k t := by
          simp only [stepUpdate, tryUpdate, hx, refusal_refusable hv, Bool.and_self, if_true]
        rw [e]
        cases hk : u.check (unchecked o) t with
        | ok =>
          rcases only_12 hu with h12 | h12
          · rw [force_accepted hu h12 hk true]; exact Or.inl h
          · exact Or.inr ⟨_, by simp only [forceUpdate, h12], Or.inr (Or.inr ⟨rfl, rfl⟩)⟩
        | error y =>
          simp only [stepUpdate, tryUpdate, hk] at h
          split at h
          · rw [force_unchecked hu o] at h; exact Or.inl h
          · cases h
      · exact Or.inr ⟨.valueError, by simp [stepUpdate, tryUpdate, hx, refusable], Or.inl rfl⟩

theorem chain_off {w : World} {reg : List (String × Updater)} (hreg : ∀ v u, assoc reg v = some u → Registered w u) {o : Options}
    {force : Bool} : ∀ (vs : List String) (acc : Result) (k : Nat) (p : Result × Nat),
    chainLoop reg o force vs acc k = .ok p → chainLoop reg (unchecked o) force vs acc k = .ok p
  | [], acc, k, p, h => h
  | v :: vs, acc, k, p, h => by
    simp only [chainLoop] at h ⊢
    split at h
    · cases h
    · next u hu =>
      split at h
      · cases h
      · next r1 k1 hs =>
        rw [step_off (hreg v u hu) hs]
        exact chain_off hreg vs _ k1 p h

theorem chain_on {w : World} {reg : List (String × Updater)} (hreg : ∀ v u, assoc reg v = some u → Registered w u) {o : Options}
    {force : Bool} : ∀ (vs : List String) (acc : Result) (k : Nat) (p : Result × Nat),
    chainLoop reg (unchecked o) force vs acc k = .ok p →
    chainLoop reg o force vs acc k = .ok p ∨ ∃ x, chainLoop reg o force vs acc k = .error x ∧ StoppedByVersion force x
  | [], acc, k, p, h => Or.inl h
  | v :: vs, acc, k, p, h => by
    simp only [chainLoop] at h ⊢
    split at h
    · cases h
    · next u hu =>
      split at h
      · cases h
      · next r1 k1 hs =>
        rcases step_on (hreg v u hu) hs with e | ⟨x, e, hx⟩
        · rw [e]
          exact chain_on hreg vs _ k1 p h
        · rw [e]
          exact Or.inr ⟨x, rfl, hx⟩

theorem run_off {w : World} {t : Node} {o : Options} {force : Bool} {k : Nat} {p : Result × Nat} (vs : List String)
    (reg : List (String × Updater)) (f g : Option String) (hreg : ∀ v u, assoc reg v = some u → Registered w u)
    (h : runChain vs reg t f g o force k = .ok p) : runChain vs reg t f g (unchecked o) force k = .ok p := by
  simp only [runChain] at h ⊢
  split at h
  · cases h
  · exact chain_off hreg _ _ _ _ h

theorem run_on {w : World} {t : Node} {o : Options} {force : Bool} {k : Nat} {p : Result × Nat} (vs : List String)
    (reg : List (String × Updater)) (f g : Option String) (hreg : ∀ v u, assoc reg v = some u → Registered w u)
    (h : runChain vs reg t f g (unchecked o) force k = .ok p) : runChain vs reg t f g o force k = .ok p ∨
      ∃ x, runChain vs reg t f g o force k = .error x ∧ StoppedByVersion force x := by
  simp only [runChain] at h ⊢
  split at h
  · cases h
  · exact chain_on hreg _ _ _ _ h

/-! ## C77 -/

/-- C77.  If an update with version checks succeeds, forced or not, the update without them gives the same result: the same
document, the same removed elements, the same new ids. -/
theorem C77_off (w : World) (t : Node) (from_ to_ : Option String) (o : Options) (force : Bool) (k : Nat) (p : Result × Nat)
    (h : update w t from_ to_ o force k = .ok p) : update w t from_ to_ { o with checkVersions := false } force k = .ok p := by
  show update w t from_ to_ (unchecked o) force k = .ok p
  simp only [update] at h ⊢
  split at h
  · cases h
  · split at h
    · next hn => simp only [hn, if_true]; exact run_off _ _ _ _ (fun v u hu => registered_stix hu) h
    · next hn =>
      simp only [hn, if_false]
      split at h
      · next hn' =>
        simp only [hn', if_true]
        split at h
        · cases h
        · simp only [cyboxUpdate] at h ⊢
          split at h
          · cases h
          · exact run_off (w := w) _ _ _ _ (fun v u hu => registered_cybox hu) h
      · cases h

/-- C77, the other way: if the update without version checks succeeds, the one with them gives the same result, or it stops for a
version: a refusal when not forced, `ValueError` for a version that cannot be read, and, forced, the missing cleaning of
the step from STIX 1.2. -/
theorem C77_on (w : World) (t : Node) (from_ to_ : Option String) (o : Options) (force : Bool) (k : Nat) (p : Result × Nat)
    (h : update w t from_ to_ { o with checkVersions := false } force k = .ok p) : update w t from_ to_ o force k = .ok p ∨
      ∃ x, update w t from_ to_ o force k = .error x ∧ (x = .valueError ∨
        (force = false ∧ (x = .unknownVersion ∨ ∃ n a b, x = .invalidVersion n a b)) ∨ (force = true ∧ x = .notImplemented)) := by
  have h : update w t from_ to_ (unchecked o) force k = .ok p := h
  simp only [update] at h ⊢
  split at h
  · cases h
  · split at h
    · next hn => simp only [hn, if_true]; exact run_on _ _ _ _ (fun v u hu => registered_stix hu) h
    · next hn =>
      simp only [hn, if_false]
      split at h
      · next hn' =>
        simp only [hn', if_true]
        split at h
        · cases h
        · simp only [cyboxUpdate] at h ⊢
          split at h
          · cases h
          · exact run_on (w := w) _ _ _ _ (fun v u hu => registered_cybox hu) h
      · cases h

/-- The sample: a forced update of a document with shared ids and untranslatable content, with and without version checks. -/
example : ∃ r, update w0 cybox201bad none (some "2.1") o0 true 0 = .ok r ∧ (r.1.removed.length = 1 ∧ r.1.remapped.length = 1) :=
  ok_of_eval (by decide +kernel)

/-- Each of the three ways to stop occurs, for documents that are updated without version checks. -/
theorem C77_stops :
    ((update w0 (cyboxDoc v201 []) (some "2.0") (some "2.0.1") (unchecked o0) false 0).isOk = true ∧
      (∃ n a b, update w0 (cyboxDoc v201 []) (some "2.0") (some "2.0.1") o0 false 0 = .error (.invalidVersion n a b))) ∧
    ((update w0 (stixDoc "x" []) (some "1.1.1") (some "1.2") (unchecked o0) true 0).isOk = true ∧
      update w0 (stixDoc "x" []) (some "1.1.1") (some "1.2") o0 true 0 = .error .valueError) ∧
    ((update w0 (stixDoc "1.1" []) (some "1.2") (some "1.2.1") (unchecked o0) true 0).isOk = true ∧
      update w0 (stixDoc "1.1" []) (some "1.2") (some "1.2.1") o0 true 0 = .error .notImplemented) := by
  refine ⟨⟨by decide +kernel, ?_⟩, ⟨by decide +kernel, by decide +kernel⟩, ⟨by decide +kernel, by decide +kernel⟩⟩
  obtain ⟨x, hx, h⟩ := err_of_eval (x := update w0 (cyboxDoc v201 []) (some "2.0") (some "2.0.1") o0 false 0)
    (P := fun x => match x with | .invalidVersion _ _ _ => true | _ => false) (by decide +kernel)
  cases x <;> first | exact ⟨_, _, _, hx⟩ | cases h

end Ramrod
