import Verif.Base
/-!
# Splitting at white space
-/

namespace Ramrod

theorem splitP_ne_nil (p : Char → Bool) : ∀ cs, splitP p cs ≠ []
  | [] => by simp [splitP]
  | c :: cs => by
    simp only [splitP]
    split
    · simp
    · split <;> simp

/-- The non-empty pieces. -/
def pieces (p : Char → Bool) (cs : List Char) : List (List Char) := (splitP p cs).filter (fun w => !w.isEmpty)

theorem pieces_sep {p : Char → Bool} {c : Char} {cs : List Char} (h : p c = true) :
    pieces p (c :: cs) = pieces p cs := by
  simp [pieces, splitP, h]

theorem pieces_seps {p : Char → Bool} : ∀ {sp cs : List Char}, (∀ c ∈ sp, p c = true) →
    pieces p (sp ++ cs) = pieces p cs
  | [], cs, _ => rfl
  | c :: sp, cs, h => by
    rw [List.cons_append, pieces_sep (h c (by simp)), pieces_seps (fun d hd => h d (by simp [hd]))]

theorem splitP_word {p : Char → Bool} : ∀ {w rest : List Char}, (∀ c ∈ w, p c = false) →
    splitP p (w ++ rest) = match splitP p rest with
      | [] => [w]
      | x :: xs => (w ++ x) :: xs
  | [], rest, _ => by
    cases h : splitP p rest with
    | nil => exact absurd h (splitP_ne_nil p rest)
    | cons x xs => simp [h]
  | c :: w, rest, h => by
    have hc := h c (by simp)
    rw [List.cons_append, splitP, if_neg (by simp [hc]), splitP_word (fun d hd => h d (by simp [hd]))]
    cases h' : splitP p rest with
    | nil => exact absurd h' (splitP_ne_nil p rest)
    | cons x xs => simp

theorem pieces_word {p : Char → Bool} {w rest : List Char} (hw : ∀ c ∈ w, p c = false) (h0 : w ≠ [])
    (hr : rest = [] ∨ ∃ c cs, rest = c :: cs ∧ p c = true) : pieces p (w ++ rest) = w :: pieces p rest := by
  unfold pieces
  rw [splitP_word hw]
  rcases hr with rfl | ⟨c, cs, rfl, hc⟩
  · simp [splitP, h0]
  · simp [splitP, hc, h0]

/-- Pieces contain no separator and are not empty. -/
theorem splitP_no_sep {p : Char → Bool} : ∀ {cs w : List Char}, w ∈ splitP p cs → ∀ c ∈ w, p c = false
  | [], w, h, c, hc => by simp [splitP] at h; subst h; cases hc
  | d :: cs, w, h, c, hc => by
    simp only [splitP] at h
    by_cases hd : p d = true
    · rw [if_pos hd] at h
      rcases List.mem_cons.1 h with rfl | h
      · cases hc
      · exact splitP_no_sep h c hc
    · rw [if_neg hd] at h
      cases h' : splitP p cs with
      | nil => exact absurd h' (splitP_ne_nil p cs)
      | cons x xs =>
        rw [h'] at h
        rcases List.mem_cons.1 h with rfl | h
        · rcases List.mem_cons.1 hc with rfl | hc
          · simpa using hd
          · exact splitP_no_sep (cs := cs) (w := x) (by rw [h']; simp) c hc
        · exact splitP_no_sep (cs := cs) (w := w) (by rw [h']; simp [h]) c hc

theorem pieces_mem {p : Char → Bool} {cs w : List Char} (h : w ∈ pieces p cs) :
    w ≠ [] ∧ ∀ c ∈ w, p c = false := by
  obtain ⟨h1, h2⟩ := List.mem_filter.1 h
  exact ⟨by simpa using h2, splitP_no_sep h1⟩

/-- Longest prefix of separators, then longest word, then the rest. -/
theorem pieces_split (p : Char → Bool) (cs : List Char) :
    (∀ c ∈ cs, p c = true) ∨
    ∃ sp w rest, cs = sp ++ w ++ rest ∧ (∀ c ∈ sp, p c = true) ∧ w ≠ [] ∧ (∀ c ∈ w, p c = false) ∧
      (rest = [] ∨ ∃ c cs', rest = c :: cs' ∧ p c = true) := by
  induction cs with
  | nil => left; simp
  | cons d cs ih =>
    by_cases hd : p d = true
    · rcases ih with ih | ⟨sp, w, rest, rfl, h1, h2, h3, h4⟩
      · left; simpa [hd] using ih
      · right
        refine ⟨d :: sp, w, rest, by simp, ?_, h2, h3, h4⟩
        simpa [hd] using h1
    · right
      have hd' : p d = false := by simpa using hd
      rcases ih with ih | ⟨sp, w, rest, rfl, h1, h2, h3, h4⟩
      · refine ⟨[], [d], cs, by simp, by simp, by simp, by simp [hd'], ?_⟩
        cases cs with
        | nil => left; rfl
        | cons c cs' => right; exact ⟨c, cs', rfl, ih c (by simp)⟩
      · cases sp with
        | nil => exact ⟨[], d :: w, rest, by simp, by simp, by simp, by simpa [hd'] using h3, h4⟩
        | cons c sp' =>
          refine ⟨[], [d], c :: sp' ++ w ++ rest, by simp, by simp, by simp, by simp [hd'], Or.inr ?_⟩
          exact ⟨c, sp' ++ w ++ rest, by simp, h1 c (by simp)⟩

end Ramrod
