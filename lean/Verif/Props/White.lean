import Verif.Props.SchemaLoc
/-!
# The white space between the words of a schema location: C17
-/

namespace Ramrod

/-! ## Statement -/

/-- The code points that Python's `str.split` separates words at (CPython, `Objects/unicodetype_db.h`). -/
def pythonSpaces : List Nat :=
  [0x09, 0x0A, 0x0B, 0x0C, 0x0D, 0x1C, 0x1D, 0x1E, 0x1F, 0x20, 0x85, 0xA0, 0x1680, 0x2000, 0x2001, 0x2002, 0x2003, 0x2004, 0x2005,
   0x2006, 0x2007, 0x2008, 0x2009, 0x200A, 0x2028, 0x2029, 0x202F, 0x205F, 0x3000]

/-- The text consists of the words, in order, with characters of `pythonSpaces` before, between and after them. -/
inductive Spaced : List Char → List String → Prop
  | blank {sp} : (∀ c ∈ sp, c.toNat ∈ pythonSpaces) → Spaced sp []
  | word {sp w rest ws} : (∀ c ∈ sp, c.toNat ∈ pythonSpaces) → w ≠ "" → (∀ c ∈ w.toList, c.toNat ∉ pythonSpaces) →
      (rest = [] ∨ ∃ c cs, rest = c :: cs ∧ c.toNat ∈ pythonSpaces) → Spaced rest ws → Spaced (sp ++ w.toList ++ rest) (w :: ws)

/-! ## Helpers -/

theorem isSpace_iff (c : Char) : isSpace c = true ↔ c.toNat ∈ pythonSpaces := by
  simp only [isSpace, pythonSpaces, Bool.or_eq_true, Bool.and_eq_true, decide_eq_true_eq, beq_iff_eq, List.mem_cons, List.not_mem_nil, or_false]
  omega

theorem words_of_spaced {cs : List Char} {ws : List String} (h : Spaced cs ws) : Words cs ws := by
  induction h with
  | blank h => exact .blank (fun c hc => (isSpace_iff c).2 (h c hc))
  | word h1 h2 h3 h4 _ ih =>
    refine .word (fun c hc => (isSpace_iff c).2 (h1 c hc)) ⟨fun e => h2 (String.toList_eq_nil_iff.1 e), fun c hc => ?_⟩ ?_ ih
    · rw [← Bool.not_eq_true, isSpace_iff]
      exact h3 c hc
    · exact h4.imp id (fun ⟨c, cs, e, hc⟩ => ⟨c, cs, e, (isSpace_iff c).2 hc⟩)

/-! ## C17 -/

/-- C17: a schema location is read at Python's white space, in pairs; an odd word at the end is dropped. -/
theorem C17_white_space (v : String) (ps : List (String × String)) (odd : List String) (ho : odd.length ≤ 1)
    (h : Spaced v.toList (flatPairs ps ++ odd)) : getSchemalocPairs v = ps := by
  unfold getSchemalocPairs
  rw [words_unique (words_of_spaced h)]
  exact pairUp_flat ps odd ho

example : Spaced "\ta\u0085b \n".toList (flatPairs [("a", "b")] ++ []) ∧ getSchemalocPairs "\ta\u0085b \n" = [("a", "b")] :=
  ⟨.word (sp := ['\t']) (w := "a") (rest := "\u0085b \n".toList) (by decide) (by decide) (by decide) (Or.inr ⟨_, _, rfl, by decide⟩)
    (.word (sp := ['\u0085']) (w := "b") (rest := " \n".toList) (by decide) (by decide) (by decide) (Or.inr ⟨_, _, rfl, by decide⟩)
      (.blank (by decide))), by decide⟩

end Ramrod
