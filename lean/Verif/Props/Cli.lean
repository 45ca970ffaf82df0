import Verif.Cli
import Verif.Props.Versions
/-!
# The command line tool: C38
-/

namespace Ramrod

open Samples

/-! ## Statement -/

/-- The exceptions the tool reports: `UpdateError`, `UnknownVersionError`, `InvalidVersionError`. -/
inductive Reported : Err → Prop
  | update (d g) : Reported (.update d g)
  | unknown : Reported .unknownVersion
  | invalid (n a b) : Reported (.invalidVersion n a b)

theorem reported_iff {x : Err} : refusable x = true ↔ Reported x := by
  constructor
  · intro h
    cases x <;> first | (constructor; done) | (exact absurd h (by decide))
  · intro h; cases h <;> rfl

/-! ## C38 -/

/-- C38, success: if the update of the input document succeeds, the tool ends normally; the updated document is in the output
file and no other file changes; without an output file no file changes and the document goes to standard output. -/
theorem C38_success (w : World) (newId : Nat → String → String) (fs : String → Option (Option Node)) (a : CliArgs) (t : Node)
    (hf : fs a.infile = some (some t)) (r : Result) (k : Nat)
    (h : update w t a.from_ a.to_ (cliOptions newId a) a.force 0 = .ok (r, k)) :
    (cliMain w newId fs a).exit = .ok ∧ (cliMain w newId fs a).removed = r.removed ∧
    (cliMain w newId fs a).remapped = r.remapped ∧
    (∀ p, a.outfile = some p → p ≠ "" → cliFiles fs (cliMain w newId fs a) p = some (some r.doc) ∧
      ∀ q, q ≠ p → cliFiles fs (cliMain w newId fs a) q = fs q) ∧
    (a.outfile = none ∨ a.outfile = some "" →
      (cliMain w newId fs a).written = some (none, r.doc) ∧ cliFiles fs (cliMain w newId fs a) = fs) := by
  unfold cliMain
  rw [hf]
  simp only
  rw [h]
  refine ⟨rfl, rfl, rfl, ?_, ?_⟩
  · intro p hp hne
    have : cliTarget a = some p := by simp [cliTarget, hp, falsy, hne]
    simp only [cliFiles, this]
    exact ⟨by simp, fun q hq => by simp [hq]⟩
  · rintro (ho | ho)
    · have : cliTarget a = none := by simp [cliTarget, ho, falsy]
      simp [cliFiles, this]
    · have : cliTarget a = none := by simp [cliTarget, ho, falsy]
      simp [cliFiles, this]

/-- A 1.1.1 document is updated into `out.xml`. -/
example : ∃ r, update w0 doc111 none none (cliOptions o0.newId { infile := "in.xml", outfile := some "out.xml" }) false 0 = .ok r :=
  (ok_of_eval (P := fun _ => True) (by decide +kernel)).imp fun _ h => h.1

/-- C38, refusal: if the update raises one of the three reported exceptions, the tool exits with the failure status, nothing is
written or reported and no file changes. -/
theorem C38_refused (w : World) (newId : Nat → String → String) (fs : String → Option (Option Node)) (a : CliArgs) (t : Node)
    (hf : fs a.infile = some (some t)) (x : Err)
    (h : update w t a.from_ a.to_ (cliOptions newId a) a.force 0 = .error x) (hx : Reported x) :
    (cliMain w newId fs a).exit = .failure ∧ (cliMain w newId fs a).written = none ∧
    (cliMain w newId fs a).removed = [] ∧ (cliMain w newId fs a).remapped = [] ∧
    cliFiles fs (cliMain w newId fs a) = fs := by
  unfold cliMain
  rw [hf]
  simp only
  rw [h]
  refine ⟨?_, rfl, rfl, rfl, rfl⟩
  simp only [reported_iff.2 hx, if_true]

/-- The example files: one document. -/
def oneFile (t : Node) : String → Option (Option Node) := fun f => if f = "in.xml" then some (some t) else none

/-- Arguments of the examples. -/
def inArgs : CliArgs := { infile := "in.xml", outfile := some "out.xml" }

/-- A document with an untranslatable field, a wrong version and an unknown version. -/
example : ∃ x, update w0 (stixDoc "3.0" []) inArgs.from_ inArgs.to_ (cliOptions o0.newId inArgs) inArgs.force 0 = .error x ∧
    Reported x := by
  refine ⟨.invalidVersion none none none, by decide +kernel, .invalid _ _ _⟩

/-- C38, the rest: the tool writes exactly if it ends normally, and exactly if the input can be read and its update succeeds; it
exits with the failure status exactly if the update raises one of the reported exceptions; otherwise the exception escapes and no
file changes. -/
theorem C38_outcomes (w : World) (newId : Nat → String → String) (fs : String → Option (Option Node)) (a : CliArgs) :
    ((∃ p d, (cliMain w newId fs a).written = some (p, d)) ↔ (cliMain w newId fs a).exit = .ok) ∧
    ((cliMain w newId fs a).exit = .ok ↔ ∃ t r k, fs a.infile = some (some t) ∧
      update w t a.from_ a.to_ (cliOptions newId a) a.force 0 = .ok (r, k)) ∧
    ((cliMain w newId fs a).exit = .failure ↔ ∃ t x, fs a.infile = some (some t) ∧
      update w t a.from_ a.to_ (cliOptions newId a) a.force 0 = .error x ∧ Reported x) ∧
    ((cliMain w newId fs a).exit ≠ .ok → cliFiles fs (cliMain w newId fs a) = fs) := by
  unfold cliMain
  cases hf : fs a.infile with
  | none => simp [cliFiles]
  | some v =>
    cases v with
    | none => simp [cliFiles]
    | some t =>
      simp only
      cases h : update w t a.from_ a.to_ (cliOptions newId a) a.force 0 with
      | ok rk => obtain ⟨r, k⟩ := rk; simp [h]
      | error x =>
        by_cases hx : Reported x
        · simp [h, reported_iff.2 hx, hx, cliFiles]
        · have : refusable x = false := by
            cases hr : refusable x with
            | true => exact absurd (reported_iff.1 hr) hx
            | false => rfl
          simp [h, this, hx, cliFiles]

/-- C38: the version checks are disabled iff `--from` is given with a version. -/
theorem C38_checks (newId : Nat → String → String) (a : CliArgs) :
    (cliOptions newId a).checkVersions = false ↔ ∃ v, v ≠ "" ∧ a.from_ = some v := by
  cases h : a.from_ with
  | none => simp [cliOptions, h, falsy]
  | some v => simp [cliOptions, h, falsy]

/-- The other two switches. -/
theorem C38_switches (newId : Nat → String → String) (a : CliArgs) :
    ((cliOptions newId a).updateVocabularies = true ↔ a.disableVocabUpdate = false) ∧
    ((cliOptions newId a).removeOptionals = true ↔ a.disableRemoveOptionals = false) := by
  simp [cliOptions]

theorem chainLoop_checks_off {w : World} {reg : List (String × Updater)}
    (hreg : ∀ v u, assoc reg v = some u → Registered w u) (o : Options) (force : Bool) (hoff : o.checkVersions = false) :
    ∀ (vs : List String) (acc : Result) (k : Nat) (x : Err), chainLoop reg o force vs acc k = .error x →
      x ≠ .unknownVersion ∧ ∀ n a b, x ≠ .invalidVersion n a b
  | [], _, _, _, h => by cases h
  | v :: vs, acc, k, x, h => by
    simp only [chainLoop] at h
    split at h
    · cases h; exact ⟨by simp, by simp⟩
    · next u hu =>
      split at h
      · next y hy =>
        cases h
        exact C10_checks_off w u (hreg v u hu) o force k acc.doc x hoff hy
      · exact chainLoop_checks_off hreg o force hoff vs _ _ x h

/-- C38, effect of `--from`: with `--from v` and an admissible range of STIX releases no version error is raised, whatever
versions the document carries. -/
theorem C38_from_given (w : World) (newId : Nat → String → String) (a : CliArgs) (e : Elem) (ks : List Node)
    (v g : String) (hv : a.from_ = some v) (hg : inForce a.to_ (some "1.2.1") = some g) (h : Older stixReleases v g)
    (hr : e.tag.name = "STIX_Package") (x : Err)
    (hx : update w (.elem e ks) a.from_ a.to_ (cliOptions newId a) a.force 0 = .error x) :
    x ≠ .unknownVersion ∧ ∀ n p q, x ≠ .invalidVersion n p q := by
  have hv0 : v ≠ "" := by
    intro he; subst he; exact absurd (older_mem h).1 (by decide)
  have hoff := (C38_checks newId a).2 ⟨v, hv0, hv⟩
  simp only [update, Node.root?, hr, if_true, pyOr_eq_inForce, hv, inForce_release hv0] at hx
  rw [stixUpdate_accepted w _ _ _ _ (inForce_release hv0) hg h] at hx
  exact chainLoop_checks_off (fun v u hu => registered_stix hu) _ _ hoff _ _ _ x hx

/-- C38, effect of `--from` for CybOX. -/
theorem C38_from_given_cybox (w : World) (newId : Nat → String → String) (a : CliArgs) (e : Elem) (ks : List Node)
    (v g : String) (hv : a.from_ = some v) (hg : inForce a.to_ (some "2.1") = some g) (h : Older cyboxReleases v g)
    (hr : e.tag.name = "Observables") (x : Err)
    (hx : update w (.elem e ks) a.from_ a.to_ (cliOptions newId a) a.force 0 = .error x) :
    x ≠ .unknownVersion ∧ ∀ n p q, x ≠ .invalidVersion n p q := by
  have hv0 : v ≠ "" := by
    intro he; subst he; exact absurd (older_mem h).1 (by decide)
  have hoff := (C38_checks newId a).2 ⟨v, hv0, hv⟩
  have hsrc : cyboxSource (.elem e ks) (some v) = .ok (some v) := by
    simp only [cyboxSource, inForce_release hv0]
  have hne : "Observables" ≠ "STIX_Package" := by decide
  simp only [update, Node.root?, hr, if_true, hne, if_false, cyboxFrom_eq, hv, hsrc] at hx
  rw [cyboxUpdate_accepted _ _ _ _ hsrc hg h] at hx
  exact chainLoop_checks_off (w := w) (fun v u hu => registered_cybox hu) _ _ hoff _ _ _ x hx

/-- A 1.0 document given as 1.1.1: the tool writes it; without `--from` a document of an unknown version is refused and `out.xml`
stays as it was. -/
example : (∃ d, (cliMain w0 o0.newId (oneFile (stixDoc "1.0" [])) { inArgs with from_ := some "1.1.1" }).written =
      some (some "out.xml", d)) ∧
    (cliMain w0 o0.newId (oneFile (stixDoc "3.0" [])) inArgs).written = none := by
  constructor
  · obtain ⟨r, hr, _⟩ := ok_of_eval (P := fun _ => True)
      (x := update w0 (stixDoc "1.0" []) (some "1.1.1") none (cliOptions o0.newId { inArgs with from_ := some "1.1.1" }) false 0)
      (by decide +kernel)
    refine ⟨r.1.doc, ?_⟩
    simp only [cliMain, oneFile, inArgs, if_true]
    simp only [inArgs] at hr
    rw [hr]
    rfl
  · exact (C38_refused w0 o0.newId (oneFile (stixDoc "3.0" [])) inArgs _ (by rfl) (.invalidVersion none none none)
      (by decide +kernel) (.invalid _ _ _)).2.1

end Ramrod
