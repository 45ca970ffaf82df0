import Verif.Report
import Verif.Props.Cli
import Verif.Props.Chain
/-!
# The report of the command line tool: C50, C51
-/

namespace Ramrod

open Samples

/-! ## Statement -/

/-- The document on standard output is complete and alone: a reader of standard output can parse it. -/
def OnlyDocument (s : Streams) (d : Node) : Prop := s.out = [.doc d]

/-- Text printed to standard output. -/
def Chatter (s : Streams) (l : String) : Prop := Item.text l ∈ s.out

/-- A line of text, not a document. -/
def isLine : Item → Bool
  | .text _ => true
  | .doc _ => false

/-! ## C50 -/

theorem writeRemoved_nil {p : Printer} {l : List Node} : writeRemoved p l = [] ↔ l = [] := by
  cases l <;> simp [writeRemoved]

theorem writeRemapped_nil {p : Printer} {l : List (String × List String)} : writeRemapped p l = [] ↔ l = [] := by
  cases l <;> simp [writeRemapped]

theorem cliTarget_none {a : CliArgs} : cliTarget a = none ↔ (a.outfile = none ∨ a.outfile = some "") := by
  unfold cliTarget falsy
  cases a.outfile with
  | none => simp
  | some s => by_cases h : s = "" <;> simp [h]

/-- C50, exactly when it holds: a successful run without output file puts the updated document alone on standard output if and
only if nothing was removed and no id was changed. -/
theorem C50_stdout_partial (p : Printer) (w : World) (newId : Nat → String → String)
    (fs : String → Option (Option Node)) (a : CliArgs) (t : Node) (hf : fs a.infile = some (some t))
    (ho : a.outfile = none ∨ a.outfile = some "") (x : Result) (k : Nat)
    (h : update w t a.from_ a.to_ (cliOptions newId a) a.force 0 = .ok (x, k)) :
    OnlyDocument (cliStreams p w newId fs a) x.doc ↔ x.removed = [] ∧ x.remapped = [] := by
  simp only [OnlyDocument, cliStreams, hf, h, printResult, cliTarget_none.2 ho, List.cons_append, List.nil_append,
    List.cons.injEq, true_and, List.append_eq_nil_iff, writeRemoved_nil, writeRemapped_nil]

/-- C50 without `--force`: the document is alone on standard output. -/
theorem C50_unforced_partial (p : Printer) (w : World) (newId : Nat → String → String)
    (fs : String → Option (Option Node)) (a : CliArgs) (t : Node) (hf : fs a.infile = some (some t))
    (ho : a.outfile = none ∨ a.outfile = some "") (hn : a.force = false) (x : Result) (k : Nat)
    (h : update w t a.from_ a.to_ (cliOptions newId a) a.force 0 = .ok (x, k)) :
    OnlyDocument (cliStreams p w newId fs a) x.doc := by
  rw [C50_stdout_partial p w newId fs a t hf ho x k h]
  rw [hn] at h
  exact ⟨(C07_unforced_removes_nothing w t _ _ _ _ x k h).1, (C07_unforced_removes_nothing w t _ _ _ _ x k h).2.1⟩

/-- With an output file the document is in no case on standard output. -/
theorem C50_file_partial (p : Printer) (w : World) (newId : Nat → String → String)
    (fs : String → Option (Option Node)) (a : CliArgs) (ho : cliTarget a ≠ none) (d : Node) :
    Item.doc d ∉ (cliStreams p w newId fs a).out := by
  have he : ∀ x : Err, Item.doc d ∉ (printError p x).out := by
    intro x
    cases x <;> simp only [printError, List.not_mem_nil, not_false_eq_true]
    rename_i dis dups
    simp only [printUpdateError]
    cases dups with
    | none => simp
    | some g => cases g <;> simp
  simp only [cliStreams]
  split
  · exact he _
  · exact he _
  · split
    · cases ht : cliTarget a with
      | none => exact absurd ht ho
      | some f =>
        rename_i x _ _
        simp only [printResult, List.nil_append, List.mem_append, not_or]
        constructor
        · cases hr : x.removed <;> simp [writeRemoved]
        · cases hr : x.remapped <;> simp [writeRemapped]
    · exact he _

example : cliTarget inArgs ≠ none := by decide

/-- A printer for the examples. -/
def p0 : Printer := ⟨fun _ => "7", fun _ => "message", fun l => pyJoin " " l, fun l => pyJoin " " l, fun _ => ["traceback"]⟩

/-- Arguments of the examples: no output file. -/
def outArgs (force : Bool) : CliArgs := { infile := "in.xml", force := force }

/-- An acceptable document is printed alone. -/
example : ∃ x k, update w0 doc111 none none (cliOptions o0.newId (outArgs false)) false 0 = .ok (x, k) ∧
    OnlyDocument (cliStreams p0 w0 o0.newId (oneFile doc111) (outArgs false)) x.doc := by
  obtain ⟨⟨x, k⟩, h, _⟩ : ∃ q, update w0 doc111 none none (cliOptions o0.newId (outArgs false)) false 0 = .ok q ∧ True :=
    ok_of_eval (by decide +kernel)
  exact ⟨x, k, h, C50_unforced_partial p0 w0 o0.newId (oneFile doc111) (outArgs false) doc111 rfl (Or.inl rfl) rfl x k h⟩

/-- C50 fails with `--force`: the list of removed nodes and of changed ids follows the document on standard output. -/
theorem C50_stdout_fails : ∃ x k,
    update w0 cybox201bad none none (cliOptions o0.newId (outArgs true)) true 0 = .ok (x, k) ∧
      (cliStreams p0 w0 o0.newId (oneFile cybox201bad) (outArgs true)).out =
        [.doc x.doc,
         .text "\n[!] The following nodes were removed from the source document during the update process:",
         .text "    Line 7: {http://cybox.mitre.org/objects#HTTPSessionObject-2}X_Forwarded_Proto",
         .text "\n[!] The following ids were duplicated in the source document and remapped during the update process:",
         .text "'d': d-cleaned- d-cleaned-x"] := by
  obtain ⟨⟨x, k⟩, h, h1, h2⟩ : ∃ q, update w0 cybox201bad none none (cliOptions o0.newId (outArgs true)) true 0 = .ok q ∧
      (writeRemoved p0 q.1.removed =
        [.text "\n[!] The following nodes were removed from the source document during the update process:",
         .text "    Line 7: {http://cybox.mitre.org/objects#HTTPSessionObject-2}X_Forwarded_Proto"] ∧
      writeRemapped p0 q.1.remapped =
        [.text "\n[!] The following ids were duplicated in the source document and remapped during the update process:",
         .text "'d': d-cleaned- d-cleaned-x"]) :=
    ok_of_eval (by decide +kernel)
  refine ⟨x, k, h, ?_⟩
  have hf : oneFile cybox201bad (outArgs true).infile = some (some cybox201bad) := rfl
  have h' : update w0 cybox201bad (outArgs true).from_ (outArgs true).to_ (cliOptions o0.newId (outArgs true))
    (outArgs true).force 0 = .ok (x, k) := h
  simp only [cliStreams, hf, h', printResult, h1, h2]
  rfl

/-- C50 fails for a refusal as well: the heading of the shared ids goes to standard output, the ids themselves to standard
error. -/
theorem C50_heading_fails :
    (cliStreams p0 w0 o0.newId (oneFile cybox201bad) (outArgs false)).out =
      [.text "[!] Found items with duplicate ids:"] ∧
    (cliStreams p0 w0 o0.newId (oneFile cybox201bad) (outArgs false)).err =
      ["[!] message", "[!] Found the following untranslatable items:",
       "  Line 7: {http://cybox.mitre.org/objects#HTTPSessionObject-2}X_Forwarded_Proto", "  'd' on lines 7 7"] := by
  decide +kernel

/-! ## C51 -/

/-- C51, success: the report has one line for each removed element, with its full name, and one for each id that was shared,
with the new ids; every line after the two headings is of this kind. -/
theorem C51_success (p : Printer) (w : World) (newId : Nat → String → String)
    (fs : String → Option (Option Node)) (a : CliArgs) (t : Node) (hf : fs a.infile = some (some t)) (x : Result) (k : Nat)
    (h : update w t a.from_ a.to_ (cliOptions newId a) a.force 0 = .ok (x, k)) :
    (∀ e ks ns, Node.elem e ks ∈ x.removed → e.tag.ns = some ns →
      Chatter (cliStreams p w newId fs a) ("    Line " ++ p.line (.elem e ks) ++ ": {" ++ ns ++ "}" ++ e.tag.name)) ∧
    (∀ i new, (i, new) ∈ x.remapped → Chatter (cliStreams p w newId fs a) ("'" ++ i ++ "': " ++ p.ids new)) ∧
    ((cliStreams p w newId fs a).out.filter isLine).length =
      x.removed.length + x.remapped.length + (if x.removed = [] then 0 else 1) + (if x.remapped = [] then 0 else 1) ∧
    (cliStreams p w newId fs a).err = [] := by
  have hs : cliStreams p w newId fs a = printResult p (cliTarget a) x := by
    simp only [cliStreams, hf, h]
  rw [hs]
  refine ⟨?_, ?_, ?_, rfl⟩
  · intro e ks ns he hns
    simp only [Chatter, printResult, List.mem_append]
    refine Or.inl (Or.inr ?_)
    have hne : x.removed.isEmpty = false := by cases hx : x.removed with
      | nil => rw [hx] at he; cases he
      | cons _ _ => rfl
    simp only [writeRemoved, hne]
    refine List.mem_cons_of_mem _ (List.mem_map.2 ⟨_, he, ?_⟩)
    simp only [tagText, hns, String.append_assoc]
    rfl
  · intro i new hi
    simp only [Chatter, printResult, List.mem_append]
    refine Or.inr ?_
    have hne : x.remapped.isEmpty = false := by cases hx : x.remapped with
      | nil => rw [hx] at hi; cases hi
      | cons _ _ => rfl
    simp only [writeRemapped, hne]
    exact List.mem_cons_of_mem _ (List.mem_map.2 ⟨_, hi, rfl⟩)
  · have hm : ∀ {α : Type} (f : α → String) (l : List α), (l.map (fun n => Item.text (f n))).filter
        isLine = l.map (fun n => Item.text (f n)) := by
      intro α f l
      rw [List.filter_eq_self]
      intro y hy
      obtain ⟨n, _, rfl⟩ := List.mem_map.1 hy
      rfl
    have h1 : ((writeRemoved p x.removed).filter isLine).length =
        x.removed.length + (if x.removed = [] then 0 else 1) := by
      cases hx : x.removed with
      | nil => rfl
      | cons n l =>
        simp only [writeRemoved, List.isEmpty_cons, Bool.false_eq_true, if_false]
        rw [List.filter_cons_of_pos rfl, hm (fun n => "    Line " ++ p.line n ++ ": " ++ tagText n)]
        simp
    have h2 : ((writeRemapped p x.remapped).filter isLine).length =
        x.remapped.length + (if x.remapped = [] then 0 else 1) := by
      cases hx : x.remapped with
      | nil => rfl
      | cons n l =>
        simp only [writeRemapped, List.isEmpty_cons, Bool.false_eq_true, if_false]
        rw [List.filter_cons_of_pos rfl, hm (fun g : String × List String => "'" ++ g.1 ++ "': " ++ p.ids g.2)]
        simp
    simp only [printResult, List.filter_append, List.length_append, h1, h2]
    cases cliTarget a <;> simp [isLine] <;> omega

/-- The document of `C50_stdout_fails` has a removed element and a changed id. -/
example : ∃ q, update w0 cybox201bad none none (cliOptions o0.newId (outArgs true)) true 0 = .ok q ∧
    (q.1.removed.map tagText = ["{http://cybox.mitre.org/objects#HTTPSessionObject-2}X_Forwarded_Proto"] ∧
      q.1.remapped = [("d", ["d-cleaned-", "d-cleaned-x"])]) :=
  ok_of_eval (by decide +kernel)

/-- C51, refusal: standard error names every listed untranslatable element and every shared id with the lines of its
elements; there are no other lines but the message and one heading. -/
theorem C51_refusal (p : Printer) (w : World) (newId : Nat → String → String)
    (fs : String → Option (Option Node)) (a : CliArgs) (t : Node) (hf : fs a.infile = some (some t))
    (d : List Ctx) (g : Dups)
    (h : update w t a.from_ a.to_ (cliOptions newId a) a.force 0 = .error (.update (some d) (some g))) :
    (∀ c ∈ d, ∀ ns, c.e.tag.ns = some ns →
      ("  Line " ++ p.line c.node ++ ": {" ++ ns ++ "}" ++ c.e.tag.name) ∈ (cliStreams p w newId fs a).err) ∧
    (∀ i cs, (i, cs) ∈ g →
      ("  '" ++ i ++ "' on lines " ++ p.lines (cs.map (fun c => p.line c.node))) ∈ (cliStreams p w newId fs a).err) ∧
    (cliStreams p w newId fs a).err.length = d.length + g.length + 1 + (if d = [] then 0 else 1) := by
  have hs : cliStreams p w newId fs a =
      printUpdateError p (p.message (.update (some d) (some g))) (some d) (some g) := by
    simp only [cliStreams, hf, h, printError]
  rw [hs]
  refine ⟨?_, ?_, ?_⟩
  · intro c hc ns hns
    have hne : d.isEmpty = false := by cases hx : d with
      | nil => rw [hx] at hc; cases hc
      | cons _ _ => rfl
    simp only [printUpdateError, hne]
    refine List.mem_cons_of_mem _ (List.mem_append_left _ (List.mem_cons_of_mem _ (List.mem_map.2 ⟨c, hc, ?_⟩)))
    simp only [tagText, Ctx.node, hns, String.append_assoc]
    rfl
  · intro i cs hi
    simp only [printUpdateError]
    exact List.mem_cons_of_mem _ (List.mem_append_right _ (List.mem_map.2 ⟨_, hi, rfl⟩))
  · simp only [printUpdateError, List.length_cons, List.length_append, List.length_map]
    cases d with
    | nil => simp
    | cons c l => simp; omega

/-- The document of `C50_heading_fails` is refused with both lists. -/
example : ∃ d g, update w0 cybox201bad none none (cliOptions o0.newId (outArgs false)) false 0 = .error (.update (some d) (some g)) ∧
    d.length = 1 ∧ g.length = 1 := by
  have h : (match update w0 cybox201bad none none (cliOptions o0.newId (outArgs false)) false 0 with
    | .error (.update (some d) (some g)) => decide (d.length = 1 ∧ g.length = 1) | _ => false) = true := by decide +kernel
  revert h
  cases update w0 cybox201bad none none (cliOptions o0.newId (outArgs false)) false 0 with
  | ok _ => intro h; cases h
  | error e =>
    cases e <;> intro h <;> try cases h
    rename_i d g
    cases d <;> cases g <;> first | cases h | exact ⟨_, _, rfl, of_decide_eq_true h⟩

end Ramrod
