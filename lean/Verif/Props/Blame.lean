import Verif.Props.Checks
import Verif.Props.Report
/-!
# C09, C51: the element an `InvalidVersionError` names, and how the command line tool prints it
-/

namespace Ramrod
open Samples

/-- The element writes a version, STIX or CybOX, that is not the version `v`. -/
def SaysOther (v : String) (e : Elem) (found : String) : Prop :=
  (ReadsStix e found ∨ ReadsCybox e found) ∧ ∃ a b, VersionForm v a ∧ VersionForm found b ∧ a ≠ b

/-- The versions a step asks for: its own, and that of the CybOX content inside. -/
def asked : String → List String
  | "1.0" => ["1.0", "2.0"]
  | "1.0.1" => ["1.0.1", "2.0.1"]
  | v => [v]

/-! ## Helpers -/

theorem checkRoots_blame {v : String} {n : Option Ctx} {a b : Option String} : ∀ {cs : List Ctx},
    cyboxCheckRoots v cs = .error (.invalidVersion n a b) → ∃ c ∈ cs, n = some c ∧ a = some v ∧ ∃ y, b = some y ∧ SaysOther v c.e y
  | [], h => by simp [cyboxCheckRoots] at h
  | c :: cs, h => by
    simp only [cyboxCheckRoots] at h
    cases hg : cyboxGetVersion c.e with
    | error z =>
      rw [hg] at h
      simp only [Except.error.injEq] at h
      have := getVersion_error hg
      rw [h] at this; cases this
    | ok y =>
      rw [hg] at h
      simp only at h
      rcases versionEqual_cases v y with ⟨p, q, hp, hq, he⟩ | ⟨hm, he⟩
      · rw [he] at h
        by_cases hpq : p = q
        · simp only [hpq, decide_true] at h
          obtain ⟨d, hd, h1⟩ := checkRoots_blame h
          exact ⟨d, List.mem_cons_of_mem _ hd, h1⟩
        · simp only [hpq, decide_false, Except.error.injEq, PyErr.invalidVersion.injEq] at h
          exact ⟨c, by simp, h.1.symm, h.2.1.symm, y, h.2.2.symm, Or.inr (getVersion_iff.1 hg), p, q, hp, hq, hpq⟩
      · rw [he] at h; cases h

theorem cyboxCheck_blame {u : Cls} {t : Node} {n : Option Ctx} {a b : Option String}
    (h : cyboxCheckVersion u t = .error (.invalidVersion n a b)) :
    ∃ c ∈ t.elems, n = some c ∧ a = some u.version ∧ ∃ y, b = some y ∧ SaysOther u.version c.e y := by
  obtain ⟨c, hc, h1⟩ := checkRoots_blame h
  exact ⟨c, (List.mem_filter.1 hc).1, h1⟩

theorem stixCheck_blame {u : Cls} {t : Node} {n : Option Ctx} {a b : Option String}
    (h : stixCheckVersion u t = .error (.invalidVersion n a b)) :
    ∃ c ∈ t.elems, n = some c ∧ a = some u.version ∧ ∃ y, b = some y ∧ SaysOther u.version c.e y := by
  simp only [stixCheckVersion] at h
  split at h
  · cases h
  · next c cs hc =>
    have hm : c ∈ t.elems := (List.mem_filter.1 (show c ∈ u.rootNodes t by rw [hc]; simp)).1
    split at h
    · cases h
    · next y hy =>
      split at h
      · cases h
      · next h0 =>
        rcases versionEqual_cases y u.version with ⟨p, q, hp, hq, he⟩ | ⟨_, he⟩
        · rw [he] at h
          by_cases hpq : p = q
          · simp [hpq] at h
          · simp only [hpq, decide_false, Except.error.injEq, PyErr.invalidVersion.injEq] at h
            exact ⟨c, hm, h.1.symm, h.2.1.symm, y, h.2.2.symm, Or.inl ⟨hy, h0⟩, q, p, hq, hp, fun e => hpq e.symm⟩
        · rw [he] at h; cases h

theorem check_blame {w : World} {u : Updater} (hu : Registered w u) {o : Options} {t : Node} {n : Option Ctx} {a b : Option String}
    (h : u.check o t = .error (.invalidVersion n a b)) :
    ∃ c ∈ t.elems, n = some c ∧ ∃ v ∈ asked u.cls.version, a = some v ∧ ∃ y, b = some y ∧ SaysOther v c.e y := by
  have one : ∀ {v : String}, (∃ c ∈ t.elems, n = some c ∧ a = some v ∧ ∃ y, b = some y ∧ SaysOther v c.e y) →
      v ∈ asked u.cls.version →
      ∃ c ∈ t.elems, n = some c ∧ ∃ v ∈ asked u.cls.version, a = some v ∧ ∃ y, b = some y ∧ SaysOther v c.e y := by
    rintro v ⟨c, hc, h1, h2⟩ hv
    exact ⟨c, hc, h1, v, hv, h2⟩
  have plain : ∀ {u : Cls}, (if o.checkVersions then stixCheckVersion u t else .ok ()) = .error (.invalidVersion n a b) →
      stixCheckVersion u t = .error (.invalidVersion n a b) := by
    intro u h
    cases hc : o.checkVersions with
    | false => simp [hc] at h
    | true => simpa [hc] using h
  have two : ∀ {s : Cls} {c : Cls}, (if o.checkVersions then
      match stixCheckVersion s t with
      | .error x => .error x
      | .ok () => cyboxCheckVersion c t
    else .ok () : Except Err Unit) = .error (.invalidVersion n a b) →
      stixCheckVersion s t = .error (.invalidVersion n a b) ∨ cyboxCheckVersion c t = .error (.invalidVersion n a b) := by
    intro s c h
    cases hc : o.checkVersions with
    | false => simp [hc] at h
    | true =>
      simp only [hc, if_true] at h
      cases hs : stixCheckVersion s t with
      | error x => rw [hs] at h; cases h; exact Or.inl rfl
      | ok y => cases y; rw [hs] at h; exact Or.inr h
  cases hu with
  | cybox20 =>
    have h : cybox20Check _ o t = _ := h
    unfold cybox20Check at h
    cases hc : o.checkVersions with
    | false => rw [hc] at h; cases h
    | true => rw [hc] at h; exact one (cyboxCheck_blame h) (by decide)
  | cybox201 =>
    have h : cybox201Check _ o t = _ := h
    unfold cybox201Check at h
    split at h
    · next x hx =>
      simp only [Except.error.injEq] at h
      subst h
      cases hc : o.checkVersions with
      | false => rw [hc] at hx; cases hx
      | true => rw [hc] at hx; exact one (cyboxCheck_blame hx) (by decide)
    · split at h
      · next y hy =>
        have := noRefuse_findAll _ _ _ hy
        cases h; cases this
      · dsimp only at h; split at h <;> cases h
  | stix10 =>
    have h : stix10Check o t = _ := h
    unfold stix10Check at h
    split at h
    · next x hx =>
      simp only [Except.error.injEq] at h
      subst h
      rcases two hx with h | h
      · exact one (stixCheck_blame h) (by decide)
      · exact one (cyboxCheck_blame h) (by decide)
    · split at h
      · next y hy =>
        have := noRefuse_findAll _ _ _ hy
        cases h; cases this
      · split at h <;> cases h
  | stix101 =>
    have h : stix101Check w o t = _ := h
    unfold stix101Check at h
    split at h
    · next x hx =>
      simp only [Except.error.injEq] at h
      subst h
      rcases two hx with h | h
      · exact one (stixCheck_blame h) (show Tables.stix101_version ∈ asked Tables.stix101_version by decide)
      · exact one (cyboxCheck_blame h) (show Tables.cybox201_version ∈ asked Tables.stix101_version by decide)
    · split at h
      · next y hy =>
        have : NoRefuse (stix101GetDisallowed w t) := by
          intro z hz
          exact noRefuse_disallowed (w := w) .stix101 t z (by simp [stix101, hz, Except.map])
        have := this _ hy
        cases h; cases this
      · dsimp only at h; split at h <;> cases h
  | stix11 => exact one (stixCheck_blame (plain h)) (show Tables.stix11_version ∈ asked Tables.stix11_version by decide)
  | stix111 => exact one (stixCheck_blame (plain h)) (by decide)
  | stix12 => exact one (stixCheck_blame (plain h)) (by decide)

/-! ## Theorems -/

/-- C09: the element recorded in an `InvalidVersionError` of a step is an element of the document; the expected version is one
the step asks for, the found version is what this element says, and they are different versions. -/
theorem C09_blame (w : World) (u : Updater) (hu : Registered w u) (o : Options) (force : Bool) (k : Nat) (t : Node)
    (n : Option Ctx) (a b : Option String) (h : stepUpdate u o force k t = .error (.invalidVersion n a b)) :
    ∃ c ∈ t.elems, n = some c ∧ ∃ v ∈ asked u.cls.version, a = some v ∧ ∃ y, b = some y ∧ SaysOther v c.e y := by
  refine check_blame hu (o := o) ?_
  have hf : force = false := by
    cases force with
    | false => rfl
    | true =>
      simp only [stepUpdate] at h
      split at h
      · cases h
      · split at h
        · have := noRefuse_forceUpdate hu _ _ _ _ h
          cases this
        · next hr =>
          cases h
          exact absurd rfl hr
  subst hf
  exact (step_refusal hu (Or.inr ⟨_, _, _, rfl⟩)).1 h

/-- A 1.0 package with CybOX 2.1 content. -/
def docBlame (kids : List Node) : Node :=
  stixDoc "1.0" [el nsStix "Observables" [at_ "cybox_major_version" "2", at_ "cybox_minor_version" "1"] kids]

/-- A wrong embedded CybOX version is found at the embedded element. -/
example : stepUpdate stix10 o0 false 0 (docBlame []) = .error (.invalidVersion ((docBlame []).ctxAt [0]) (some "2.0") (some "2.1")) ∧
    ((docBlame []).ctxAt [0]).map (·.e.tag.name) = some "Observables" ∧ "2.0" ∈ asked stix10.cls.version := by
  decide +kernel

theorem chain_blame {w : World} {reg : List (String × Updater)} (hreg : ∀ v u, assoc reg v = some u → Registered w u) {o : Options}
    {force : Bool} {n : Option Ctx} {a b : Option String} : ∀ (vs : List String) (acc : Result) (k : Nat),
    chainLoop reg o force vs acc k = .error (.invalidVersion n a b) →
    ∃ c v y, n = some c ∧ a = some v ∧ b = some y ∧ SaysOther v c.e y
  | [], _, _, h => by cases h
  | v :: vs, acc, k, h => by
    simp only [chainLoop] at h
    split at h
    · cases h
    · next u hu =>
      split at h
      · next x hx =>
        cases h
        obtain ⟨c, _, h1, v, _, h2, y, h3, h4⟩ := C09_blame w u (hreg _ _ hu) o force k acc.doc n a b hx
        exact ⟨c, v, y, h1, h2, h3, h4⟩
      · exact chain_blame hreg vs _ _ h

theorem runChain_blame {w : World} {vs : List String} {reg : List (String × Updater)}
    (hreg : ∀ v u, assoc reg v = some u → Registered w u) {t : Node} {from_ to_ : Option String} {o : Options} {force : Bool} {k : Nat}
    {n : Option Ctx} {a b : Option String} (h : runChain vs reg t from_ to_ o force k = .error (.invalidVersion n a b)) :
    (n = none ∧ a = none ∧ b = none) ∨ ∃ c v y, n = some c ∧ a = some v ∧ b = some y ∧ SaysOther v c.e y := by
  simp only [runChain] at h
  split at h
  · next x hx =>
    cases h
    left
    have one : ∀ v, (validateVersion v vs : Except Err String) = .error (.invalidVersion n a b) → n = none ∧ a = none ∧ b = none := by
      intro v hv
      simp only [validateVersion] at hv
      split at hv
      · cases hv
      · split at hv
        · cases hv
        · split at hv
          · cases hv
          · cases hv; exact ⟨rfl, rfl, rfl⟩
    simp only [validateVersions, bind, Except.bind] at hx
    split at hx
    · next y hy => cases hx; exact one _ hy
    · split at hx
      · next y hy => cases hx; exact one _ hy
      · split at hx
        · split at hx
          · cases hx
          · cases hx; exact ⟨rfl, rfl, rfl⟩
        · cases hx
  · exact Or.inr (chain_blame hreg _ _ _ h)

/-- C09, whole updates: an `InvalidVersionError` is either about the requested range and names nothing, or it names an element,
what this element says, and the version it should say instead. -/
theorem C09_update_blame (w : World) (t : Node) (from_ to_ : Option String) (o : Options) (force : Bool) (k : Nat)
    (n : Option Ctx) (a b : Option String) (h : update w t from_ to_ o force k = .error (.invalidVersion n a b)) :
    (n = none ∧ a = none ∧ b = none) ∨ ∃ c v y, n = some c ∧ a = some v ∧ b = some y ∧ SaysOther v c.e y := by
  simp only [update] at h
  split at h
  · cases h
  · split at h
    · exact runChain_blame (fun _ _ hu => registered_stix hu) h
    · split at h
      · have cy : ∀ {f : Option String}, cyboxUpdate t f to_ o force k = .error (.invalidVersion n a b) →
            (n = none ∧ a = none ∧ b = none) ∨ ∃ c v y, n = some c ∧ a = some v ∧ b = some y ∧ SaysOther v c.e y := by
          intro f h
          simp only [cyboxUpdate] at h
          split at h
          · next x hx => cases h; exact absurd hx (cyboxFrom_not n a b _ _)
          · exact runChain_blame (w := w) (fun _ _ hu => registered_cybox hu) h
        split at h
        · next x hx => cases h; exact absurd hx (cyboxFrom_not n a b _ _)
        · exact cy h
      · cases h
where
  cyboxFrom_not (n : Option Ctx) (a b : Option String) (t : Node) (f : Option String) :
      cyboxFrom t f ≠ .error (.invalidVersion n a b) := by
    intro h
    unfold cyboxFrom at h
    split at h
    · unfold cyboxRootVersion at h
      split at h
      · cases h
      · next e _ =>
        cases hg : cyboxGetVersion e with
        | error x => rw [hg] at h; cases h; cases getVersion_error hg
        | ok v => rw [hg] at h; cases h
    · cases h

example : wrongVersion (update w0 (stixDoc "1.1.1" []) (some "1.2") none o0 false 0) =
      some (some packageTag, some "1.2", some "1.1.1") ∧
    wrongVersion (update w0 (stixDoc "1.1.1" []) (some "1.2") (some "1.1") o0 false 0) = some (none, none, none) := by
  decide +kernel

theorem saysOther_ne {v y : String} {e : Elem} (h : SaysOther v e y) : v ≠ "" ∧ y ≠ "" := by
  obtain ⟨_, a, b, ha, hb, _⟩ := h
  have h0 : ∀ a, ¬ VersionForm "" a := by
    intro a h
    have := (parseVer_iff "" a).2 h
    cases this
  exact ⟨fun e => h0 a (e ▸ ha), fun e => h0 b (e ▸ hb)⟩

/-- C51, wrong version: when the element with the wrong version has child nodes, standard error holds the message, this
element with its full name and line, the expected and the found version, and nothing else is printed.
Partial: an element without child nodes is not named (`C51_version_fails`). -/
theorem C51_version_partial (p : Printer) (w : World) (newId : Nat → String → String)
    (fs : String → Option (Option Node)) (a : CliArgs) (t : Node) (hf : fs a.infile = some (some t)) (c : Ctx)
    (x y : Option String)
    (h : update w t a.from_ a.to_ (cliOptions newId a) a.force 0 = .error (.invalidVersion (some c) x y))
    (ns : String) (hns : c.e.tag.ns = some ns) (hk : c.kids ≠ []) :
    ∃ v f, SaysOther v c.e f ∧ cliStreams p w newId fs a =
      ⟨[], ["[!] " ++ p.message (.invalidVersion (some c) x y),
        "  Node: " ++ ("{" ++ ns ++ "}" ++ c.e.tag.name) ++ " on line " ++ p.line (.elem c.e c.kids),
        "  Expected: '" ++ v ++ "'", "  Found: '" ++ f ++ "'"]⟩ := by
  rcases C09_update_blame _ _ _ _ _ _ _ _ _ _ h with ⟨h0, _⟩ | ⟨c', v, f, h1, h2, h3, h4⟩
  · cases h0
  cases h1; cases h2; cases h3
  refine ⟨v, f, h4, ?_⟩
  obtain ⟨hv, hf'⟩ := saysOther_ne h4
  have hk' : c.kids.isEmpty = false := by
    cases hc : c.kids with
    | nil => exact absurd hc hk
    | cons _ _ => rfl
  simp [cliStreams, hf, h, printError, printInvalidVersion, Ctx.node, Node.truthy, tagText, hns, falsy, hv, hf', hk']

/-- The CybOX content of a 1.0 package says 2.1. -/
example : cliStreams p0 w0 o0.newId (oneFile (docBlame [el nsCyboxCore "Observable"])) (outArgs false) =
    ⟨[], ["[!] message", "  Node: {http://stix.mitre.org/stix-1}Observables on line 7", "  Expected: '2.0'",
      "  Found: '2.1'"]⟩ := by
  decide +kernel

/-- C51, the failure: when the element with the wrong version has no child nodes, its name and line are not printed. -/
theorem C51_version_fails (p : Printer) (w : World) (newId : Nat → String → String)
    (fs : String → Option (Option Node)) (a : CliArgs) (t : Node) (hf : fs a.infile = some (some t)) (c : Ctx)
    (x y : Option String)
    (h : update w t a.from_ a.to_ (cliOptions newId a) a.force 0 = .error (.invalidVersion (some c) x y))
    (hk : c.kids = []) :
    ∃ v f, SaysOther v c.e f ∧ cliStreams p w newId fs a =
      ⟨[], ["[!] " ++ p.message (.invalidVersion (some c) x y), "  Expected: '" ++ v ++ "'", "  Found: '" ++ f ++ "'"]⟩ := by
  rcases C09_update_blame _ _ _ _ _ _ _ _ _ _ h with ⟨h0, _⟩ | ⟨c', v, f, h1, h2, h3, h4⟩
  · cases h0
  cases h1; cases h2; cases h3
  refine ⟨v, f, h4, ?_⟩
  obtain ⟨hv, hf'⟩ := saysOther_ne h4
  simp [cliStreams, hf, h, printError, printInvalidVersion, Ctx.node, Node.truthy, falsy, hv, hf', hk]

/-- The same with an empty list of observables. -/
example : cliStreams p0 w0 o0.newId (oneFile (docBlame [])) (outArgs false) =
    ⟨[], ["[!] message", "  Expected: '2.0'", "  Found: '2.1'"]⟩ := by
  decide +kernel

end Ramrod
