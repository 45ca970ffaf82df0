import Verif.Props.Vocabs
import Verif.Props.Order
/-!
# Documents of the wrong version: C09
-/

namespace Ramrod

open Samples

/-! ## Specification vocabulary -/

/-- The CybOX version attributes of an element, read as one version; a missing or empty update number is left out. -/
def ReadsCybox (e : Elem) (v : String) : Prop :=
  ∃ a b, e.get? ⟨none, "cybox_major_version"⟩ = some a ∧ a ≠ "" ∧ e.get? ⟨none, "cybox_minor_version"⟩ = some b ∧ b ≠ "" ∧
    (((e.get? ⟨none, "cybox_update_version"⟩ = none ∨ e.get? ⟨none, "cybox_update_version"⟩ = some "") ∧ v = a ++ "." ++ b) ∨
     ∃ c, c ≠ "" ∧ e.get? ⟨none, "cybox_update_version"⟩ = some c ∧ v = a ++ "." ++ b ++ "." ++ c)

/-- The STIX version attribute. -/
def ReadsStix (e : Elem) (v : String) : Prop := e.get? ⟨none, "version"⟩ = some v ∧ v ≠ ""

/-- The element has a version with the same numbers as `v`. -/
def RightCybox (v : String) (e : Elem) : Prop := ∃ x a, ReadsCybox e x ∧ VersionForm x a ∧ VersionForm v a
def RightStix (v : String) (e : Elem) : Prop := ∃ x a, ReadsStix e x ∧ VersionForm x a ∧ VersionForm v a

/-- A version that is no version. -/
def Malformed (x : String) : Prop := ¬ ∃ a, VersionForm x a

/-- `UnknownVersionError` or `InvalidVersionError`. -/
def VersionRefusal (x : Err) : Prop := x = .unknownVersion ∨ ∃ n a b, x = .invalidVersion n a b

/-- The first package of a document, in document order. -/
def FirstPackage (t : Node) (c : Ctx) : Prop :=
  t.elems.find? (fun d => decide (d.e.tag = ⟨some "http://stix.mitre.org/stix-1", "STIX_Package"⟩)) = some c

/-- Source version of each STIX step. -/
inductive StixStep (w : World) : Updater → String → Prop
  | stix10 : StixStep w stix10 "1.0"
  | stix101 : StixStep w (stix101 w) "1.0.1"
  | stix11 : StixStep w (stix11 w) "1.1"
  | stix111 : StixStep w stix111 "1.1.1"
  | stix12 : StixStep w stix12 "1.2"

/-- Source version of each CybOX step. -/
inductive CyboxStep : Updater → String → Prop
  | cybox20 : CyboxStep cybox20 "2.0"
  | cybox201 : CyboxStep cybox201 "2.0.1"

/-! ## Helpers -/

theorem getVersion_iff {e : Elem} {v : String} : cyboxGetVersion e = .ok v ↔ ReadsCybox e v := by
  unfold cyboxGetVersion ReadsCybox
  show (if (falsy (e.get? ⟨none, "cybox_major_version"⟩) || falsy (e.get? ⟨none, "cybox_minor_version"⟩)) = true then
      Except.error PyErr.unknownVersion else if falsy (e.get? ⟨none, "cybox_update_version"⟩) = true then
      Except.ok ((e.get? ⟨none, "cybox_major_version"⟩).getD "" ++ "." ++ (e.get? ⟨none, "cybox_minor_version"⟩).getD "")
      else Except.ok ((e.get? ⟨none, "cybox_major_version"⟩).getD "" ++ "." ++ (e.get? ⟨none, "cybox_minor_version"⟩).getD "" ++
        "." ++ (e.get? ⟨none, "cybox_update_version"⟩).getD "")) = .ok v ↔ _
  generalize e.get? ⟨none, "cybox_major_version"⟩ = x1
  generalize e.get? ⟨none, "cybox_minor_version"⟩ = x2
  generalize e.get? ⟨none, "cybox_update_version"⟩ = x3
  constructor
  · intro h
    split at h
    · cases h
    · next h12 =>
      simp only [Bool.or_eq_true, not_or, Bool.not_eq_true] at h12
      cases x1 with
      | none => cases h12.1
      | some a =>
        cases x2 with
        | none => cases h12.2
        | some b =>
          have ha : a ≠ "" := by simpa [falsy] using h12.1
          have hb : b ≠ "" := by simpa [falsy] using h12.2
          refine ⟨a, b, rfl, ha, rfl, hb, ?_⟩
          split at h
          · next h3 =>
            simp only [Except.ok.injEq, Option.getD_some] at h
            refine Or.inl ⟨?_, h.symm⟩
            cases x3 with
            | none => exact Or.inl rfl
            | some c => right; simpa [falsy] using h3
          · next h3 =>
            simp only [Except.ok.injEq, Option.getD_some] at h
            cases x3 with
            | none => exact absurd rfl h3
            | some c => exact Or.inr ⟨c, by simpa [falsy] using h3, rfl, h.symm⟩
  · rintro ⟨a, b, rfl, ha, rfl, hb, h⟩
    have h1 : falsy (some a) = false := by simpa [falsy] using ha
    have h2 : falsy (some b) = false := by simpa [falsy] using hb
    simp only [h1, h2, Bool.or_self, Bool.false_eq_true, if_false, Option.getD_some]
    rcases h with ⟨h3, rfl⟩ | ⟨c, hc, rfl, rfl⟩
    · have : falsy x3 = true := by rcases h3 with rfl | rfl <;> rfl
      simp only [this, if_true]
    · have : falsy (some c) = false := by simpa [falsy] using hc
      simp only [this, Bool.false_eq_true, if_false, Option.getD_some]

theorem getVersion_error {e : Elem} {x : Err} (h : cyboxGetVersion e = .error x) : x = .unknownVersion := by
  simp only [cyboxGetVersion] at h
  split at h
  · cases h; rfl
  · split at h <;> cases h

/-- The outcome of one comparison. -/
theorem versionEqual_cases (x y : String) : (∃ a b, VersionForm x a ∧ VersionForm y b ∧
      (isVersionEqual x y : Except Err Bool) = .ok (decide (a = b))) ∨
    ((Malformed x ∨ Malformed y) ∧ (isVersionEqual x y : Except Err Bool) = .error .valueError) := by
  have hC := C34_equality x y
  by_cases hx : ∃ a, VersionForm x a
  · by_cases hy : ∃ b, VersionForm y b
    · obtain ⟨a, ha⟩ := hx
      obtain ⟨b, hb⟩ := hy
      obtain ⟨r, hr, hi⟩ := hC.1 a b ha hb
      refine Or.inl ⟨a, b, ha, hb, ?_⟩
      rw [hr]
      by_cases hab : a = b
      · simp [hab, hi.2 hab]
      · simp only [hab, decide_false, Except.ok.injEq]
        cases r
        · rfl
        · exact absurd (hi.1 rfl) hab
    · exact Or.inr ⟨Or.inr hy, hC.2 (Or.inr hy)⟩
  · exact Or.inr ⟨Or.inl hx, hC.2 (Or.inl hx)⟩

theorem versionForm_unique {x : String} {a b : Ver} (ha : VersionForm x a) (hb : VersionForm x b) : a = b := by
  have h1 := (parseVer_iff x a).2 ha
  rw [(parseVer_iff x b).2 hb] at h1
  cases h1; rfl

theorem checkRoots_ok {v : String} : ∀ {cs : List Ctx}, cyboxCheckRoots v cs = .ok () ↔ ∀ c ∈ cs, RightCybox v c.e
  | [] => by simp [cyboxCheckRoots]
  | c :: cs => by
    have ih := checkRoots_ok (v := v) (cs := cs)
    simp only [cyboxCheckRoots, List.mem_cons, forall_eq_or_imp]
    cases hg : cyboxGetVersion c.e with
    | error x =>
      simp only [reduceCtorEq, false_iff, not_and]
      rintro ⟨y, a, hy, _⟩
      rw [getVersion_iff.2 hy] at hg; cases hg
    | ok y =>
      have hy := getVersion_iff.1 hg
      simp only
      rcases versionEqual_cases v y with ⟨a, b, ha, hb, he⟩ | ⟨hm, he⟩
      · rw [he]
        by_cases hab : a = b
        · subst hab
          simp only [decide_true]
          rw [ih]
          exact ⟨fun h => ⟨⟨y, a, hy, hb, ha⟩, h⟩, fun h => h.2⟩
        · simp only [hab, decide_false, reduceCtorEq, false_iff, not_and]
          rintro ⟨z, d, hz, hzd, hvd⟩
          rw [getVersion_iff.2 hz] at hg; cases hg
          exact absurd ((versionForm_unique ha hvd).trans (versionForm_unique hzd hb)) hab
      · rw [he]
        simp only [reduceCtorEq, false_iff, not_and]
        rintro ⟨z, d, hz, hzd, hvd⟩
        rw [getVersion_iff.2 hz] at hg; cases hg
        rcases hm with hm | hm
        · exact absurd ⟨d, hvd⟩ hm
        · exact absurd ⟨d, hzd⟩ hm

theorem checkRoots_error {v : String} {x : Err} : ∀ {cs : List Ctx}, cyboxCheckRoots v cs = .error x →
    (VersionRefusal x ∧ ∃ c ∈ cs, ¬ RightCybox v c.e) ∨
      (x = .valueError ∧ (Malformed v ∨ ∃ c ∈ cs, ∃ y, ReadsCybox c.e y ∧ Malformed y))
  | [], h => by simp [cyboxCheckRoots] at h
  | c :: cs, h => by
    have ih := checkRoots_error (v := v) (x := x) (cs := cs)
    have lift : cyboxCheckRoots v cs = .error x → (VersionRefusal x ∧ ∃ d ∈ c :: cs, ¬ RightCybox v d.e) ∨
        (x = .valueError ∧ (Malformed v ∨ ∃ d ∈ c :: cs, ∃ y, ReadsCybox d.e y ∧ Malformed y)) := fun h' => by
      rcases ih h' with ⟨h1, d, hd, h2⟩ | ⟨h1, h2 | ⟨d, hd, h2⟩⟩
      · exact Or.inl ⟨h1, d, List.mem_cons_of_mem _ hd, h2⟩
      · exact Or.inr ⟨h1, Or.inl h2⟩
      · exact Or.inr ⟨h1, Or.inr ⟨d, List.mem_cons_of_mem _ hd, h2⟩⟩
    simp only [cyboxCheckRoots] at h
    cases hg : cyboxGetVersion c.e with
    | error z =>
      rw [hg] at h
      simp only [Except.error.injEq] at h
      refine Or.inl ⟨Or.inl (h ▸ getVersion_error hg), c, by simp, ?_⟩
      rintro ⟨y, a, hy, _⟩
      rw [getVersion_iff.2 hy] at hg; cases hg
    | ok y =>
      have hy := getVersion_iff.1 hg
      rw [hg] at h
      simp only at h
      rcases versionEqual_cases v y with ⟨a, b, ha, hb, he⟩ | ⟨hm, he⟩
      · rw [he] at h
        by_cases hab : a = b
        · simp only [hab, decide_true] at h
          exact lift h
        · simp only [hab, decide_false, Except.error.injEq] at h
          refine Or.inl ⟨Or.inr ⟨_, _, _, h.symm⟩, c, by simp, ?_⟩
          rintro ⟨z, d, hz, hzd, hvd⟩
          rw [getVersion_iff.2 hz] at hg; cases hg
          exact absurd ((versionForm_unique ha hvd).trans (versionForm_unique hzd hb)) hab
      · rw [he] at h
        simp only [Except.error.injEq] at h
        refine Or.inr ⟨h.symm, ?_⟩
        rcases hm with hm | hm
        · exact Or.inl hm
        · exact Or.inr ⟨c, by simp, y, hy, hm⟩

theorem refusal_refusable {x : Err} (h : VersionRefusal x) : refusable x = true := by
  rcases h with rfl | ⟨n, a, b, rfl⟩ <;> rfl

theorem step_refusal {w : World} {u : Updater} (hu : Registered w u) {o : Options} {k : Nat} {t : Node} {x : Err}
    (hx : VersionRefusal x) : stepUpdate u o false k t = .error x ↔ u.check o t = .error x := by
  have hr := refusal_refusable hx
  simp only [stepUpdate, tryUpdate, Bool.and_false, Bool.false_eq_true, if_false]
  constructor
  · intro h
    split at h
    · cases h
    · next y hy =>
      simp only [Except.error.injEq] at h
      subst h
      split at hy
      · next z hz => rw [hz]; cases hy; rfl
      · have := noRefuse_update hu _ _ _ hy
        rw [hr] at this; cases this
  · intro h
    rw [h]

theorem step_error {u : Updater} {o : Options} {k : Nat} {t : Node} {x : Err} (h : u.check o t = .error x) :
    stepUpdate u o false k t = .error x := by
  simp [stepUpdate, tryUpdate, h]

/-- Only the version comparison refuses a version. -/
theorem cyboxCheck_refusal {u : Updater} {v : String} (hu : CyboxStep u v) {o : Options} (ho : o.checkVersions = true)
    {t : Node} {x : Err} : (VersionRefusal x ∧ u.check o t = .error x) ↔
      (VersionRefusal x ∧ cyboxCheckRoots v (t.elems.filter (fun c => decide (c.e.tag = observablesTag))) = .error x) := by
  have hroots : ∀ m : List (String × String), assoc m "cybox" = some "http://cybox.mitre.org/cybox-2" →
      t.xpath m xpathObservables = t.elems.filter (fun c => decide (c.e.tag = observablesTag)) := by
    intro m hm
    unfold Node.xpath
    congr 1
    funext c
    simp only [xpathObservables, absX, XAlt.selects, XName.resolve, XPred.holds, hm, List.any_cons, List.any_nil,
      Bool.true_or, Bool.and_true, Bool.or_false]
    rfl
  cases hu with
  | cybox20 =>
    simp only [cybox20, cybox20Check, ho, if_true, cyboxCheckVersion, Cls.rootNodes, cybox20Cls,
      hroots Tables.cybox20_nsmap (by decide +kernel)]
    rfl
  | cybox201 =>
    simp only [cybox201, cybox201Check, ho, if_true, cyboxCheckVersion, Cls.rootNodes, cybox201Cls,
      hroots Tables.cybox201_nsmap (by decide +kernel)]
    simp only [show Tables.cybox201_version = "2.0.1" from rfl]
    cases hc : cyboxCheckRoots "2.0.1" (t.elems.filter (fun c => decide (c.e.tag = observablesTag))) with
    | error y => exact Iff.rfl
    | ok _ =>
      simp only [reduceCtorEq, and_false, iff_false, not_and]
      intro hx h
      have hr := refusal_refusable hx
      split at h
      · next y hy =>
        have := noRefuse_findAll _ _ _ hy
        simp only [Except.error.injEq] at h
        subst h
        rw [hr] at this; cases this
      · split at h
        · cases h
        · simp only [Except.error.injEq] at h
          subst h
          rcases hx with h | ⟨n, a, b, h⟩ <;> cases h

/-! ## CybOX -/

theorem versionForm_cybox {u : Updater} {v : String} (hu : CyboxStep u v) : ¬ Malformed v := by
  intro h
  cases hu with
  | cybox20 => exact h ⟨⟨2, 0, 0, none⟩, (parseVer_iff _ _).1 (by decide)⟩
  | cybox201 => exact h ⟨⟨2, 0, 1, none⟩, (parseVer_iff _ _).1 (by decide)⟩

/-- C09 for the CybOX steps, all nested `cybox:Observables` included: when no version in the document is malformed, the
step refuses the version exactly if some `cybox:Observables` lacks a version or has another one than the step's. -/
theorem C09_cybox_partial (w : World) (u : Updater) (v : String) (hu : CyboxStep u v) (o : Options)
    (ho : o.checkVersions = true) (k : Nat) (t : Node)
    (hwf : ∀ c ∈ t.elems, c.e.tag = ⟨some "http://cybox.mitre.org/cybox-2", "Observables"⟩ →
      ∀ x, ReadsCybox c.e x → ¬ Malformed x) :
    (∃ x, stepUpdate u o false k t = .error x ∧ VersionRefusal x) ↔
      ∃ c ∈ t.elems, c.e.tag = ⟨some "http://cybox.mitre.org/cybox-2", "Observables"⟩ ∧ ¬ RightCybox v c.e := by
  have hreg : Registered w u := by cases hu <;> constructor
  constructor
  · rintro ⟨x, hs, hx⟩
    have h := ((cyboxCheck_refusal hu ho).1 ⟨hx, (step_refusal hreg hx).1 hs⟩).2
    rcases checkRoots_error h with ⟨_, c, hc, hn⟩ | ⟨rfl, _⟩
    · obtain ⟨h1, h2⟩ := List.mem_filter.1 hc
      exact ⟨c, h1, of_decide_eq_true h2, hn⟩
    · rcases hx with h | ⟨_, _, _, h⟩ <;> cases h
  · rintro ⟨c, hc, ht, hn⟩
    cases h : cyboxCheckRoots v (t.elems.filter (fun c => decide (c.e.tag = observablesTag))) with
    | ok _ =>
      exact absurd (checkRoots_ok.1 h c (List.mem_filter.2 ⟨hc, decide_eq_true ht⟩)) hn
    | error x =>
      rcases checkRoots_error h with ⟨hx, _⟩ | ⟨_, hm | ⟨d, hd, y, hy, hm⟩⟩
      · exact ⟨x, (step_refusal hreg hx).2 ((cyboxCheck_refusal hu ho).2 ⟨hx, h⟩).2, hx⟩
      · exact absurd hm (versionForm_cybox hu)
      · obtain ⟨h1, h2⟩ := List.mem_filter.1 hd
        exact absurd hm (hwf d h1 (of_decide_eq_true h2) y hy)

/-- A second, nested `cybox:Observables` of version 2.0 in a 2.0.1 document. -/
def docTwoRoots : Node := cyboxDoc v201 [el nsCyboxCore "Observables" v20 []]

example : stepUpdate cybox201 o0 false 0 docTwoRoots = .error (.invalidVersion (docTwoRoots.ctxAt [0]) (some "2.0.1") (some "2.0")) := by
  decide +kernel

/-- C09 fails for malformed versions: `2.x` is neither refused as unknown nor as invalid, but raises `ValueError`. -/
theorem C09_malformed_fails :
    stepUpdate cybox201 o0 false 0 (cyboxDoc [at_ "cybox_major_version" "2", at_ "cybox_minor_version" "x"] []) =
      .error .valueError ∧
    stepUpdate stix12 o0 false 0 (stixDoc "one" []) = .error .valueError := by decide +kernel

/-! ## STIX -/

theorem rootNodes_head {m : List (String × String)} (hm : assoc m "stix" = some "http://stix.mitre.org/stix-1") {t : Node} :
    (t.xpath m xpathStixRoots).head? =
      t.elems.find? (fun d => decide (d.e.tag = ⟨some "http://stix.mitre.org/stix-1", "STIX_Package"⟩)) := by
  rw [← List.head?_filter]
  unfold Node.xpath
  congr 2
  funext c
  simp only [xpathStixRoots, absX, XAlt.selects, XName.resolve, XPred.holds, hm, List.any_cons, List.any_nil,
    Bool.true_or, Bool.and_true, Bool.or_false]

/-- What the STIX version check says of the first package. -/
theorem stixCheck_first {u : Cls} (hm : assoc u.nsmap "stix" = some "http://stix.mitre.org/stix-1")
    (hr : u.xpathRoots = xpathStixRoots) {t : Node} {c : Ctx} (hf : FirstPackage t c)
    (hwf : ∀ x, ReadsStix c.e x → ¬ Malformed x) (hv : ¬ Malformed u.version) :
    (RightStix u.version c.e → stixCheckVersion u t = .ok ()) ∧
    (¬ RightStix u.version c.e → ∃ x, VersionRefusal x ∧ stixCheckVersion u t = .error x) := by
  have h := rootNodes_head (m := u.nsmap) hm (t := t)
  rw [show t.elems.find? _ = some c from hf] at h
  unfold stixCheckVersion Cls.rootNodes
  rw [hr]
  cases hx : t.xpath u.nsmap xpathStixRoots with
  | nil => rw [hx] at h; cases h
  | cons d ds =>
    rw [hx] at h
    simp only [List.head?_cons, Option.some.injEq] at h
    subst h
    simp only [stixGetVersion]
    cases hg : d.e.get? attrVersion with
    | none =>
      refine ⟨?_, fun _ => ⟨_, Or.inl rfl, rfl⟩⟩
      rintro ⟨x, a, hxr, _⟩
      have : d.e.get? attrVersion = some x := hxr.1
      rw [hg] at this; cases this
    | some y =>
      simp only
      by_cases hy : y = ""
      · refine ⟨?_, fun _ => ⟨_, Or.inl rfl, by simp [hy]⟩⟩
        rintro ⟨x, a, hxr, _⟩
        have : d.e.get? attrVersion = some x := hxr.1
        rw [hg] at this; cases this
        exact absurd hy hxr.2
      · have hread : ReadsStix d.e y := ⟨hg, hy⟩
        rw [if_neg hy]
        rcases versionEqual_cases y u.version with ⟨a, b, ha, hb, he⟩ | ⟨hmal, _⟩
        · rw [he]
          by_cases hab : a = b
          · subst hab
            exact ⟨fun _ => by simp, fun hn => absurd ⟨y, a, hread, ha, hb⟩ hn⟩
          · refine ⟨?_, fun _ => ⟨.invalidVersion (some d) (some u.version) (some y), Or.inr ⟨_, _, _, rfl⟩, by simp [hab]⟩⟩
            rintro ⟨x, d', hxr, hxd, hvd⟩
            have : d.e.get? attrVersion = some x := hxr.1
            rw [hg] at this; cases this
            exact absurd ((versionForm_unique ha hxd).trans (versionForm_unique hvd hb)) hab
        · rcases hmal with h | h
          · exact absurd h (hwf y hread)
          · exact absurd h hv

/-- C09 for the STIX steps, first package only: if it lacks a version or has another (well-formed) one, the step refuses
the version. -/
theorem C09_stix_partial (w : World) (u : Updater) (v : String) (hu : StixStep w u v) (o : Options)
    (ho : o.checkVersions = true) (k : Nat) (t : Node) (c : Ctx) (hf : FirstPackage t c)
    (hwf : ∀ x, ReadsStix c.e x → ¬ Malformed x) (hn : ¬ RightStix v c.e) :
    ∃ x, stepUpdate u o false k t = .error x ∧ VersionRefusal x := by
  have wf : ∀ s, (parseVer s).isSome = true → ¬ Malformed s := fun s hs hm => by
    obtain ⟨a, ha⟩ := Option.isSome_iff_exists.1 hs
    exact hm ⟨a, (parseVer_iff s a).1 ha⟩
  cases hu with
  | stix10 =>
    obtain ⟨x, hx, he⟩ := (stixCheck_first (u := stix10Cls) (by decide +kernel) rfl hf hwf (wf _ (by decide))).2 hn
    exact ⟨x, step_error (by simp [stix10, stix10Check, ho, he]), hx⟩
  | stix101 =>
    obtain ⟨x, hx, he⟩ := (stixCheck_first (u := stix101Cls w)
      (show assoc Tables.stix101_nsmap "stix" = _ by decide +kernel) rfl hf hwf (wf "1.0.1" (by decide))).2 hn
    exact ⟨x, step_error (by simp [stix101, stix101Check, ho, he]), hx⟩
  | stix11 =>
    obtain ⟨x, hx, he⟩ := (stixCheck_first (u := stix11Cls w)
      (show assoc Tables.stix11_nsmap "stix" = _ by decide +kernel) rfl hf hwf (wf "1.1" (by decide))).2 hn
    exact ⟨x, step_error (by simp [stix11, stix11Check, ho, he]), hx⟩
  | stix111 =>
    obtain ⟨x, hx, he⟩ := (stixCheck_first (u := stix111Cls) (by decide +kernel) rfl hf hwf (wf _ (by decide))).2 hn
    exact ⟨x, step_error (by simp [stix111, stix111Check, ho, he]), hx⟩
  | stix12 =>
    obtain ⟨x, hx, he⟩ := (stixCheck_first (u := stix12Cls) (by decide +kernel) rfl hf hwf (wf _ (by decide))).2 hn
    exact ⟨x, step_error (by simp [stix12, stix12Check, ho, he]), hx⟩

example : stepUpdate stix12 o0 false 0 (stixDoc "1.1" []) = .error (.invalidVersion ((stixDoc "1.1" []).ctxAt []) (some "1.2") (some "1.1")) ∧
    stepUpdate (stix11 w0) o0 false 0 (stixDoc "" []) = .error .unknownVersion := by decide +kernel

/-- A 1.1.1 package with a related 1.0 package. -/
def docRelated : Node :=
  stixDoc "1.1.1" [el nsStix "Related_Packages" [] [el nsStix "STIX_Package" [at_ "version" "1.0"] []]]

/-- C09 fails for STIX: only the first package is looked at; a nested package of another version is accepted. -/
theorem C09_second_package_fails : (stepUpdate stix111 o0 false 0 docRelated).isOk = true ∧
    (docRelated.elems.filter (fun c => decide (c.e.tag = packageTag))).map (fun c => c.e.get? (.plain "version")) =
      [some "1.1.1", some "1.0"] := by decide +kernel

end Ramrod
