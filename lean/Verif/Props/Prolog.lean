import Verif.Document
import Verif.Props.Heap
import Verif.Props.Rename
/-!
# C70: comments and processing instructions beside the root

The library copies the root element alone in every step, so everything beside the root is lost in every successful update.
The namespace script loses it whenever it replaces the root.
-/

namespace Ramrod

/-! ## The library -/

/-- The document around a result of the library. -/
def alone (p : Result × Nat) : DocResult × Nat := (⟨⟨[], p.1.doc, []⟩, p.1.removed, p.1.remapped⟩, p.2)

theorem chainDocument_alone {reg : List (String × Updater)} {o : Options} {force : Bool} : ∀ (vs : List String)
    (acc : DocResult) (k : Nat), (vs = [] → acc.document.before = [] ∧ acc.document.after = []) →
    chainDocument reg o force vs acc k =
      (chainLoop reg o force vs ⟨acc.document.root, acc.removed, acc.remapped⟩ k).map alone
  | [], ⟨⟨b, t, a⟩, x, y⟩, k, h => by
    obtain ⟨h1, h2⟩ := h rfl
    dsimp only at h1 h2
    subst h1 h2
    rfl
  | v :: vs, acc, k, _ => by
    simp only [chainDocument, chainLoop]
    cases assoc reg v with
    | none => rfl
    | some u =>
      simp only [stepDocument, Document.copyRoot]
      cases stepUpdate u o force k acc.document.root with
      | error x => rfl
      | ok p =>
        obtain ⟨r, k'⟩ := p
        exact chainDocument_alone vs ⟨⟨[], r.doc, []⟩, acc.removed ++ r.removed, dictUpdate acc.remapped r.remapped⟩ k'
          (fun _ => ⟨rfl, rfl⟩)

theorem runDocument_alone {versions : List String} (hn : versions.Nodup) (h0 : "" ∉ versions)
    (hcmp : ∀ f ∈ versions, ∀ g ∈ versions,
      (match parseVer f, parseVer g with
        | some a, some b => a.cmp b == .lt
        | _, _ => false) = decide (versions.idxOf f < versions.idxOf g))
    (hp : ∀ f ∈ versions, (parseVer f).isSome = true) (reg : List (String × Updater)) (d : Document)
    (from_ to_ : Option String) (o : Options) (force : Bool) (k : Nat) :
    runDocument versions reg d from_ to_ o force k = (runChain versions reg d.root from_ to_ o force k).map alone := by
  simp only [runDocument, runChain]
  cases hv : (validateVersions from_ to_ versions : Except Err (String × String)) with
  | error x => rfl
  | ok p =>
    obtain ⟨f, g⟩ := p
    obtain ⟨rfl, rfl, hf, hg, _, _⟩ := validateVersions_ok hv
    have hold : Older versions f g := by
      refine Classical.byContradiction fun hno => ?_
      rw [(validateVersions_both hn h0 hcmp hp hf hg).2 hno] at hv
      cases hv
    exact chainDocument_alone _ _ _ (fun e => absurd e (slice_ne_nil hn hold))

/-- C70 for the library, what holds: the root element of the result, the removed nodes and the new ids depend on the root
element of the input alone.  Missing: what stands beside the root is always lost (`C70_lost`). -/
theorem C70_root_partial (w : World) (d : Document) (from_ to_ : Option String) (o : Options) (force : Bool) (k : Nat) :
    updateDocument w d from_ to_ o force k = (update w d.root from_ to_ o force k).map
      (fun p => (⟨⟨[], p.1.doc, []⟩, p.1.removed, p.1.remapped⟩, p.2)) := by
  have hs := fun f g => runDocument_alone (versions := stixVersions) stix_nodup (by decide) stix_cmp_lt stix_parse
    (stixUpdaters w) d f g o force k
  have hc := fun f g => runDocument_alone (versions := cyboxVersions) cybox_nodup (by decide) cybox_cmp_lt cybox_parse
    cyboxUpdaters d f g o force k
  simp only [updateDocument, update]
  cases d.root.root? with
  | none => rfl
  | some e =>
    dsimp only
    by_cases h1 : e.tag.name = "STIX_Package"
    · simp only [h1, if_true, stixUpdate]
      exact hs _ _
    · by_cases h2 : e.tag.name = "Observables"
      · simp only [h2, if_true]
        cases cyboxFrom d.root from_ with
        | error x => rfl
        | ok f =>
          simp only [cyboxUpdate]
          cases cyboxFrom d.root f with
          | error x => rfl
          | ok f' => exact hc _ _
      · simp only [h1, h2, if_false]; rfl

/-- C70 fails for the library, for every document: after a successful update there is nothing beside the root, whatever there
was before. -/
theorem C70_lost (w : World) (d : Document) (from_ to_ : Option String) (o : Options) (force : Bool) (k k' : Nat)
    (r : DocResult) (h : updateDocument w d from_ to_ o force k = .ok (r, k')) :
    r.document.before = [] ∧ r.document.after = [] := by
  rw [C70_root_partial] at h
  cases hu : update w d.root from_ to_ o force k with
  | error x => rw [hu] at h; cases h
  | ok p => rw [hu] at h; cases h; exact ⟨rfl, rfl⟩

/-! ## The namespace script -/

theorem dedup_declared : ∀ {m : NsMap} {x : Option String × String}, x ∈ m.dedup → x ∈ m
  | [], _, h => h
  | (p, u) :: rest, x, h => by
    simp only [NsMap.dedup, List.mem_cons] at h ⊢
    rcases h with h | h
    · exact Or.inl h
    · exact Or.inr (dedup_declared (List.mem_filter.1 h).1)

/-- C70 for the namespace script, what holds: if no namespace declared at the root is renamed, everything beside the root
stays.  Missing: otherwise it is lost (`C70_script_fails`). -/
theorem C70_script_partial (file : String → List String) (d d' : Document) (fromId toId : String) (e : Elem)
    (he : d.root.root? = some e)
    (hn : ∀ p ∈ e.decls, ∀ q ∈ (getNamespaceList file fromId).zip (getNamespaceList file toId), q.1 ≠ p.2)
    (h : updateNsDocument file d fromId toId = .ok d') : d'.before = d.before ∧ d'.after = d.after := by
  have hr : rootReplaced (zipDict (getNamespaceList file fromId) (getNamespaceList file toId)) d.root = false := by
    obtain ⟨ks, hd⟩ : ∃ ks, d.root = .elem e ks := by
      cases hroot : d.root with
      | elem e' ks => rw [hroot] at he; cases he; exact ⟨ks, rfl⟩
      | other c t => rw [hroot] at he; cases he
    rw [hd]
    simp only [rootReplaced, List.any_eq_false]
    intro p hp
    rcases assoc_update_last p.2 ((getNamespaceList file fromId).zip (getNamespaceList file toId)) [] with
      ⟨i, v, h1, _⟩ | ⟨h1, _⟩
    · exact absurd rfl (hn p (dedup_declared hp) (p.2, v) (List.mem_of_getElem? h1))
    · have : assoc (zipDict (getNamespaceList file fromId) (getNamespaceList file toId)) p.2 = none := h1
      simp [this]
  simp only [updateNsDocument, hr] at h
  split at h
  · cases h
  · cases h; exact ⟨rfl, rfl⟩

open Samples

/-- A package with a license above it. -/
def docLicensed (t : Node) : Document := ⟨["license", "?xml-stylesheet href='s.xsl'"], t, ["end"]⟩

example : ∃ r, updateDocument w0 (docLicensed (stixDoc "1.1.1" [])) none none o0 false 0 = .ok r ∧
    (docLicensed (stixDoc "1.1.1" [])).before ≠ r.1.document.before ∧ r.1.document.after = [] := by
  refine ok_of_eval ?_
  rw [C70_root_partial]
  decide +kernel

/-- C70 fails for the library: an update without force succeeds and loses the license above the root. -/
theorem C70_fails : ∃ r, updateDocument w0 (docLicensed (stixDoc "1.2" [])) none none o0 false 0 = .ok r ∧
    r.1.document.before ≠ (docLicensed (stixDoc "1.2" [])).before ∧
    r.1.document.after ≠ (docLicensed (stixDoc "1.2" [])).after := by
  refine ok_of_eval ?_
  decide +kernel

/-- C70 fails for the namespace script: renaming the namespaces of STIX 1.2 loses the license above the root. -/
theorem C70_script_fails : ∃ d, updateNsDocument (fun _ => []) (docLicensed docTyped) "stix1.2" "stix1.2.1" = .ok d ∧
    d.before ≠ (docLicensed docTyped).before ∧ d.after ≠ (docLicensed docTyped).after :=
  ok_of_eval (by decide +kernel)

/-- A package that declares no namespace listed for STIX 1.2.1. -/
example : ∃ d, updateNsDocument (fun _ => []) (docLicensed docTyped) "stix1.2.1" "stix1.2" = .ok d ∧
    d.before = ["license", "?xml-stylesheet href='s.xsl'"] ∧ rootAttr d.root (.plain "version") = some "1.2" :=
  ok_of_eval (by decide +kernel)

example : ∃ e, docTyped.root? = some e ∧ e.decls ≠ [] ∧ ∀ p ∈ e.decls,
    ∀ q ∈ (getNamespaceList (fun _ => []) "stix1.2.1").zip (getNamespaceList (fun _ => []) "stix1.2"), q.1 ≠ p.2 :=
  ⟨_, rfl, by decide +kernel, by decide +kernel⟩

end Ramrod
