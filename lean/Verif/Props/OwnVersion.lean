import Verif.Props.VersionCheck
import Verif.Props.Release
import Verif.Props.Cli
/-!
# C78: Telling the tool the version it would find changes nothing
-/

namespace Ramrod

open Samples

/-! ## Specification vocabulary -/

/-- The root says that the document is of this version. -/
def OwnVersion (t : Node) (v : String) : Prop :=
  ∃ e ks, t = .elem e ks ∧ v ≠ "" ∧
    ((e.tag.name = "STIX_Package" ∧ e.get? ⟨none, "version"⟩ = some v) ∨ (e.tag.name = "Observables" ∧ SaysCybox e v))

/-! ## Helpers -/

theorem own_version {w : World} {t : Node} {v : String} (hv : OwnVersion t v) (to_ : Option String) (o : Options) (force : Bool) (k : Nat) :
    update w t none to_ o force k = update w t (some v) to_ o force k := by
  obtain ⟨e, ks, rfl, _, ⟨h1, h2⟩ | ⟨h1, h2⟩⟩ := hv
  · rw [(C42_defaults w e ks none to_ o force k).1 h1]
    exact congrArg (fun x => update w (.elem e ks) x to_ o force k) h2
  · exact (C42_defaults w e ks none to_ o force k).2.1 h1 v (saysCybox_read h2)

theorem options_named (newId : Nat → String → String) {a : CliArgs} {v : String} (hv : v ≠ "") :
    cliOptions newId { a with from_ := some v } = { cliOptions newId a with checkVersions := false } := by
  simp [cliOptions, falsy, hv]

/-! ## C78 -/

/-- C78.  If the tool succeeds without `--from`, it does the same with `--from` and the version of the document: the same
document to the same place and the same report. -/
theorem C78_named (w : World) (newId : Nat → String → String) (fs : String → Option (Option Node)) (a : CliArgs) (ha : a.from_ = none)
    (t : Node) (ht : fs a.infile = some (some t)) (v : String) (hv : OwnVersion t v) (h : (cliMain w newId fs a).exit = .ok) :
    cliMain w newId fs { a with from_ := some v } = cliMain w newId fs a := by
  obtain ⟨t', r, k, ht', hr⟩ := (C38_outcomes w newId fs a).2.1.1 h
  rw [ht] at ht'
  cases ht'
  rw [ha, own_version hv] at hr
  have hoff := C77_off w t (some v) a.to_ _ a.force 0 _ hr
  obtain ⟨_, _, _, hv0, _⟩ := id hv
  rw [← options_named newId hv0] at hoff
  simp only [cliMain, ht, hoff, ha, own_version hv, hr]
  rfl

/-- C78, the other way: if the tool succeeds with `--from` and the version of the document, it does the same without `--from`, or it
writes nothing and stops for a version elsewhere in the document: refused without `--force`, with an uncaught `ValueError` for an
unreadable version, or, with `--force`, with the `NotImplementedError` of the step from STIX 1.2. -/
theorem C78_unnamed (w : World) (newId : Nat → String → String) (fs : String → Option (Option Node)) (a : CliArgs) (ha : a.from_ = none)
    (t : Node) (ht : fs a.infile = some (some t)) (v : String) (hv : OwnVersion t v)
    (h : (cliMain w newId fs { a with from_ := some v }).exit = .ok) :
    cliMain w newId fs a = cliMain w newId fs { a with from_ := some v } ∨
      ((cliMain w newId fs a).written = none ∧ ((cliMain w newId fs a).exit = .uncaught .valueError ∨
        (a.force = false ∧ (cliMain w newId fs a).exit = .failure) ∨
        (a.force = true ∧ (cliMain w newId fs a).exit = .uncaught .notImplemented))) := by
  obtain ⟨t', r, k, ht', hr⟩ := (C38_outcomes w newId fs { a with from_ := some v }).2.1.1 h
  have ht' : fs a.infile = some (some t') := ht'
  rw [ht] at ht'
  cases ht'
  obtain ⟨_, _, _, hv0, _⟩ := id hv
  rw [options_named newId hv0] at hr
  have e1 : cliMain w newId fs { a with from_ := some v } = ⟨some (cliTarget a, r.doc), r.removed, r.remapped, .ok⟩ := by
    simp only [cliMain, ht, options_named newId hv0, hr]
    rfl
  rcases C77_on w t (some v) a.to_ (cliOptions newId a) a.force 0 _ hr with h | ⟨x, h, hx⟩
  · left
    rw [e1]
    simp only [cliMain, ht, ha, own_version hv, h]
  · right
    have e2 : cliMain w newId fs a = ⟨none, [], [], if refusable x then .failure else .uncaught x⟩ := by
      simp only [cliMain, ht, ha, own_version hv, h]
    rw [e2]
    refine ⟨rfl, ?_⟩
    rcases hx with rfl | ⟨hf, hx⟩ | ⟨hf, rfl⟩
    · exact Or.inl rfl
    · refine Or.inr (Or.inl ⟨hf, ?_⟩)
      rcases hx with rfl | ⟨n, a, b, rfl⟩ <;> rfl
    · exact Or.inr (Or.inr ⟨hf, rfl⟩)

/-- The sample: a forced update of a CybOX document with shared ids and untranslatable content. -/
example : OwnVersion cybox201bad "2.0.1" ∧ (cliMain w0 o0.newId (oneFile cybox201bad) { infile := "in.xml", force := true }).exit = .ok ∧
    (cliMain w0 o0.newId (oneFile cybox201bad) { infile := "in.xml", force := true }).removed ≠ [] := by
  refine ⟨⟨_, _, rfl, by decide, Or.inr ⟨rfl, "2", "0", by decide, by decide, by decide, by decide, Or.inr ⟨"1", by decide, by decide,
    by decide⟩⟩⟩, ?_⟩
  have h : (match update w0 cybox201bad none none (cliOptions o0.newId { infile := "in.xml", force := true }) true 0 with
      | .ok (r, _) => !r.removed.isEmpty
      | .error _ => false) = true := by decide +kernel
  have hf : oneFile cybox201bad "in.xml" = some (some cybox201bad) := rfl
  simp only [cliMain, hf]
  split at h
  · next r k hr =>
    rw [hr]
    exact ⟨rfl, fun (e : r.removed = []) => by rw [e] at h; cases h⟩
  · cases h

/-- The second case of `C78_unnamed` occurs: a 1.0 package with CybOX 2.0 content in a place that the first step does not know is
refused without `--from` (C45) and updated with it. -/
theorem C78_differs : OwnVersion docTarget "1.0" ∧
    (cliMain w0 o0.newId (oneFile docTarget) { infile := "in.xml", to_ := some "1.1" }).exit = .failure ∧
    (cliMain w0 o0.newId (oneFile docTarget) { infile := "in.xml", to_ := some "1.1", from_ := some "1.0" }).exit = .ok := by
  refine ⟨⟨_, _, rfl, by decide, Or.inl ⟨rfl, by decide⟩⟩, ?_⟩
  have hf : oneFile docTarget "in.xml" = some (some docTarget) := rfl
  have h1 : (match update w0 docTarget none (some "1.1") (cliOptions o0.newId { infile := "in.xml", to_ := some "1.1" }) false 0 with
      | .ok _ => false
      | .error x => refusable x) = true := by decide +kernel
  have h2 : (update w0 docTarget (some "1.0") (some "1.1")
      (cliOptions o0.newId { infile := "in.xml", to_ := some "1.1", from_ := some "1.0" }) false 0).isOk = true := by decide +kernel
  simp only [cliMain, hf]
  constructor
  · split at h1
    · cases h1
    · next x hx => rw [hx]; simp only [h1, if_true]
  · revert h2
    cases update w0 docTarget (some "1.0") (some "1.1")
      (cliOptions o0.newId { infile := "in.xml", to_ := some "1.1", from_ := some "1.0" }) false 0 with
    | ok q => exact fun _ => rfl
    | error x => intro h; cases h

end Ramrod
