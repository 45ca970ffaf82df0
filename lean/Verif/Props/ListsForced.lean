import Verif.Props.Lists
import Verif.Props.Lost
import Verif.Props.Manual
/-!
# Lists in forced STIX 1.0 steps: C27
-/

namespace Ramrod

open Samples

/-- C27 for CybOX inside STIX 1.0, forced or not: the step reads the document, or the document without its untranslatable content;
every text left keeps its items as in `C27_stix_partial`.  Missing: as there. -/
theorem C27_stix_forced_partial (w : World) (o : Options) (force : Bool) (k k' : Nat) (t : Node) (r : Result)
    (h : stepUpdate stix10 o force k t = .ok (r, k')) (rows rows' : List VocabRow) (hr : StepRows w cybox20 rows)
    (hr' : StepRows w stix10 rows') : ∃ t0, (t0 = t ∨ ∃ l, ReportsAll t rules10 l ∧
      t0 = t.without (fun c => decide (c.pos ∈ l.map (·.pos)))) ∧
    ∀ c ∈ t0.elems, (∃ c0 ∈ t.elems, c.e = c0.e ∧ c.anc = c0.anc) ∧
      ((o.updateVocabularies = false ∨ ∀ row ∈ rows ++ rows', ∀ p, ¬ Outdated row p c) → KeepsItems r.doc c) := by
  obtain ⟨r1, hu, _, _, hcl⟩ := step_parts h
  refine ⟨r1.doc, ?_, fun c hc => ⟨?_, fun hv => stix10_items hu hr hr' hc hv⟩⟩
  · rcases hcl with ⟨rfl, _⟩ | hcl
    · exact Or.inl rfl
    · obtain ⟨F, l, ν, n, _, hl, _, hF, hd, _⟩ := clean_spec (StepRules.stix10 (w := w)) hcl
      refine Or.inr ⟨l, hl, ?_⟩
      rw [hd, edit_self (fun c hc => hF c hc (by rintro ⟨_, _, hn, _⟩; cases hn))]
  · rcases hcl with ⟨rfl, _⟩ | hcl
    · exact ⟨c, hc, rfl, rfl⟩
    · obtain ⟨F, l, ν, n, _, hl, _, hF, hd, _⟩ := clean_spec (StepRules.stix10 (w := w)) hcl
      rw [hd, edit_self (fun c hc => hF c hc (by rintro ⟨_, _, hn, _⟩; cases hn))] at hc
      obtain ⟨c0, h0, he, _, ha, _⟩ := mem_without hc
      exact ⟨c0, h0, he, ha⟩

/-- A forced step: the malware instance goes, the list stays. -/
def docForcedList : Node :=
  stixDoc "1.0" [el "http://stix.mitre.org/TTP-1" "Malware" [] [el "http://stix.mitre.org/TTP-1" "Malware_Instance"
    [xsiType "m:MAEC4.0InstanceType"] [] none [(some "m", "http://stix.mitre.org/extensions/Malware#MAEC4.0-1")]],
    cy "Object" [cy "Properties" [cy "Value" [] (some "a,b&comma;c")]]]

example : (stepUpdate stix10 { o0 with updateVocabularies := false } true 0 docForcedList).map
    (fun r => r.1.doc.elems.map (fun c => (c.e.tag.name, c.e.text))) =
    .ok [("STIX_Package", none), ("Object", none), ("Properties", none), ("Value", some "a##comma##b,c")] := by decide +kernel

end Ramrod
