import Verif.Lemmas.Relabel
import Verif.Props.Versions
/-!
# C49: what an update does not look at

`Relabel` (Lemmas/Relabel.lean) renames the namespace prefixes of a document, its ids, the values of the attributes no step
manages, and the contents of its comments.  The relabelled document has the relabelled outcome.
-/

namespace Ramrod

/-- C49 for `cybox.update`: relabelling a document relabels the outcome, whether that is a document, an error, or a forced
result with its removed nodes and its table of new ids. -/
theorem C49_cybox (r : Relabel) (hr : r.Faithful) {o o' : Options} (ho : r.Opts o o') (t : Node)
    (from_ to_ : Option String) (force : Bool) (k : Nat) :
    cyboxUpdate (r.node t) from_ to_ o' force k = r.out r.counted (cyboxUpdate t from_ to_ o force k) :=
  r.cyboxUpdate_node hr ho t from_ to_ force k

/-- C49 for `stix.update`.  The two prefixes the library writes itself have to stay. -/
theorem C49_stix (r : Relabel) (hr : r.Faithful) {w : World} (hw : r.Outside w) {o o' : Options} (ho : r.Opts o o')
    (t : Node) (from_ to_ : Option String) (force : Bool) (k : Nat) :
    stixUpdate w (r.node t) from_ to_ o' force k = r.out r.counted (stixUpdate w t from_ to_ o force k) :=
  r.stixUpdate_node hr hw ho t from_ to_ force k

/-- C49 for `ramrod.update`. -/
theorem C49_update (r : Relabel) (hr : r.Faithful) {w : World} (hw : r.Outside w) {o o' : Options} (ho : r.Opts o o')
    (t : Node) (from_ to_ : Option String) (force : Bool) (k : Nat) :
    update w (r.node t) from_ to_ o' force k = r.out r.counted (update w t from_ to_ o force k) := by
  simp only [update, r.root?_node, r.stixRootVersion_node, r.cyboxFrom_node]
  cases t.root? with
  | none => rfl
  | some e =>
    have hn : (r.elem e).tag = e.tag := rfl
    simp only [Option.map_some, hn]
    by_cases h1 : e.tag.name = "STIX_Package"
    · simp only [h1, if_true]
      exact r.stixUpdate_node hr hw ho t _ to_ force k
    · by_cases h2 : e.tag.name = "Observables"
      · simp only [h2, if_true]
        cases cyboxFrom t from_ with
        | error x => rfl
        | ok f => exact r.cyboxUpdate_node hr ho t f to_ force k
      · simp only [h1, h2, if_false]; rfl

/-- A relabelling that leaves the ids alone needs no other options. -/
theorem Relabel.opts_same (r : Relabel) (h : ∀ s, r.id s = s) (o : Options) : r.Opts o o :=
  ⟨rfl, rfl, rfl, fun k s => by rw [h, h]⟩

/-- C49, prefixes only: with the same options, the document with other prefixes is accepted exactly when the document is,
and an accepted one has the same number of removed nodes and the same new ids. -/
theorem C49_prefixes (r : Relabel) (hr : r.Faithful) (hid : ∀ s, r.id s = s) {w : World} (hw : r.Outside w) (o : Options)
    (t : Node) (from_ to_ : Option String) (force : Bool) (k : Nat) :
    (∀ x n, update w t from_ to_ o force k = .ok (x, n) →
      ∃ y, update w (r.node t) from_ to_ o force k = .ok (y, n) ∧ y.doc = r.node x.doc ∧
        y.removed.length = x.removed.length ∧ y.remapped = x.remapped) ∧
    (∀ e, update w t from_ to_ o force k = .error e → ∃ e', update w (r.node t) from_ to_ o force k = .error e') := by
  have h := C49_update r hr hw (r.opts_same hid o) t from_ to_ force k
  refine ⟨fun x n hx => ?_, fun e he => ?_⟩
  · rw [hx] at h
    refine ⟨r.result x, h, rfl, ?_, ?_⟩
    · simp [Relabel.result]
    · have : (r.id : String → String) = fun s => s := funext hid
      simp [Relabel.result, this]
  · rw [he] at h
    exact ⟨_, h⟩

/-! ## Concrete cases -/

namespace Samples

/-- Two prefixes exchanged, a mark on every id, other attributes and comments blanked. -/
def swapped : Relabel where
  pre s := if s = "maec" then "m" else if s = "m" then "maec" else s
  id s := s ++ "-x"
  other _ _ := ""
  comment _ := ""

theorem swapped_faithful : swapped.Faithful where
  pre_inj a b h := by
    simp only [swapped] at h
    repeat' split at h
    all_goals simp_all
  pre_colon a h := by
    simp only [swapped]
    repeat' split
    · decide
    · decide
    · exact h
  id_inj a b h := by
    have : (a ++ "-x").toList = (b ++ "-x").toList := congrArg String.toList h
    simp only [String.toList_append, List.append_cancel_right_eq] at this
    exact String.toList_inj.1 this

theorem swapped_outside : swapped.Outside w0 where
  date _ := rfl
  parse _ _ h := nomatch h
  common := by decide
  indicator := by decide

/-- New ids in unary. -/
def oPlain : Options := { newId := fun n _ => String.ofList (List.replicate (n + 1) 'n') }
/-- The same ids with the mark. -/
def oMarked : Options := { newId := fun n _ => String.ofList (List.replicate (n + 1) 'n') ++ "-x" }

theorem swapped_opts : swapped.Opts oPlain oMarked := ⟨rfl, rfl, rfl, fun _ _ => rfl⟩

/-- A 1.0.1 package with a MAEC instance, a comment, two nodes sharing an id, and an outdated vocabulary. -/
def docBlind (p i title c : String) : Node :=
  el nsStix "STIX_Package" [at_ "version" "1.0.1"]
    [el nsTTP "Malware" []
      [el nsTTP "Malware_Instance" [xsiType (p ++ ":MAEC4.0InstanceType")], el nsTTP "Malware_Instance" [at_ "title" title]],
     .other c none, el nsStix "Indicator" [at_ "id" i], el nsStix "Indicator" [at_ "id" i],
     el nsStix "Campaign" [xsiType "stixVocabs:IndicatorTypeVocab-1.0"]] none
    [(some "stix", nsStix), (some "xsi", nsXsi), (some "stixVocabs", stixVocabNs), (some p, nsMAEC)]

example : swapped.node (docBlind "maec" "a" "t" "c") = docBlind "m" "a-x" "" "" := by decide +kernel

/-- The two outcomes: the forced update of the relabelled package is the relabelled result; without force both fail. -/
example :
    update w0 (docBlind "m" "a-x" "" "") none none oMarked true 0 =
        swapped.out swapped.counted (update w0 (docBlind "maec" "a" "t" "c") none none oPlain true 0) ∧
      (∃ x, update w0 (docBlind "maec" "a" "t" "c") none none oPlain true 0 = .ok x ∧ x.1.removed.length = 1 ∧
        x.1.remapped = [("a", ["n", "nn"])]) ∧
      (∃ e, update w0 (docBlind "maec" "a" "t" "c") none none oPlain false 0 = .error e) := by
  refine ⟨?_, ?_, ?_⟩
  · have h : docBlind "m" "a-x" "" "" = swapped.node (docBlind "maec" "a" "t" "c") := by decide +kernel
    rw [h]
    exact C49_update swapped swapped_faithful swapped_outside swapped_opts _ _ _ _ _
  · exact ok_of_eval (by decide +kernel)
  · cases h : update w0 (docBlind "maec" "a" "t" "c") none none oPlain false 0 with
    | error e => exact ⟨e, rfl⟩
    | ok x =>
      have : (match update w0 (docBlind "maec" "a" "t" "c") none none oPlain false 0 with
        | .ok _ => false | .error _ => true) = true := by decide +kernel
      rw [h] at this; cases this

/-- A relabelling of the prefix of the root. -/
def plainer : Relabel where
  pre s := if s = "stix" then "" else if s = "" then "stix" else s
  id s := s
  other _ v := v
  comment c := c

theorem plainer_faithful : plainer.Faithful where
  pre_inj a b h := by
    simp only [plainer] at h
    repeat' split at h
    all_goals simp_all
  pre_colon a h := by
    simp only [plainer]
    repeat' split
    · decide
    · decide
    · exact h
  id_inj _ _ h := h

/-- The hypotheses of `C49_prefixes` for a package whose main prefix is replaced. -/
example : ∃ y, update w0 (plainer.node doc111) none none oPlain false 0 = .ok (y, 0) := by
  have h := C49_prefixes plainer plainer_faithful (fun _ => rfl) (w := w0)
    ⟨fun _ => rfl, fun _ _ h => (nomatch h), by decide, by decide⟩ oPlain doc111 none none false 0
  obtain ⟨⟨x, n⟩, hx, hn⟩ : ∃ p : Result × Nat, update w0 doc111 none none oPlain false 0 = .ok p ∧ p.2 = 0 :=
    ok_of_eval (by decide +kernel)
  obtain ⟨y, hy, _⟩ := h.1 x n hx
  cases hn
  exact ⟨y, hy⟩

/-- A mailslot handle that holds a handle, and `extra`. -/
def docSlot (extra : List Node) : Node :=
  cyboxDoc v201 [el nsWinMailslot "Handle" [] (el "http://cybox.mitre.org/objects#WinHandleObject-2" "Handle" [] [] :: extra)]

end Samples
open Samples

/-- C49 does not extend to adding comments: a mailslot handle with one handle in it is updated, and refused once a comment
stands beside that handle. -/
theorem C49_comment_fails :
    (∃ x, cyboxUpdate (docSlot []) none none oPlain false 0 = .ok x) ∧
      ∃ d g, cyboxUpdate (docSlot [.other " note " none]) none none oPlain false 0 = .error (.update d g) := by
  constructor
  · obtain ⟨x, hx, _⟩ : ∃ x, cyboxUpdate (docSlot []) none none oPlain false 0 = .ok x ∧ True :=
      ok_of_eval (by decide +kernel)
    exact ⟨x, hx⟩
  · have h : (match cyboxUpdate (docSlot [.other " note " none]) none none oPlain false 0 with
      | .error (.update _ _) => true | _ => false) = true := by decide +kernel
    revert h
    cases cyboxUpdate (docSlot [.other " note " none]) none none oPlain false 0 with
    | ok x => intro h; cases h
    | error e => cases e <;> intro h <;> first | exact ⟨_, _, rfl⟩ | cases h

end Ramrod
