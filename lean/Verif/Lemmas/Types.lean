import Verif.Lemmas.Cut
import Verif.Lemmas.Words
/-!
# `xsi:type` values
-/

namespace Ramrod

/-- The value is `p:ty`, with no other colon. -/
def IsQType (v p ty : String) : Prop := v = p ++ ":" ++ ty ∧ ':' ∉ p.toList ∧ ':' ∉ ty.toList

theorem pySplit_eq {v p ty : String} (h : IsQType v p ty) : pySplit ':' v = [p, ty] := by
  obtain ⟨rfl, hp, ht⟩ := h
  unfold pySplit
  have h1 : splitP (fun c => c == ':') ty.toList = [ty.toList] := by
    have := splitP_word (p := fun c => c == ':') (w := ty.toList) (rest := []) (fun c hc => by
      simp only [beq_eq_false_iff_ne]; intro e; exact ht (e ▸ hc))
    simpa [splitP] using this
  have h2 : splitP (fun c => c == ':') (p ++ ":" ++ ty).toList = [p.toList, ty.toList] := by
    rw [String.toList_append, String.toList_append, List.append_assoc]
    rw [splitP_word (fun c hc => by
      simp only [beq_eq_false_iff_ne]; intro e; exact hp (e ▸ hc))]
    simp [splitP, h1]
  rw [h2]
  simp [String.ofList_toList]

theorem joinL_splitP (sep : Char) : ∀ cs, joinL [sep] (splitP (fun c => c == sep) cs) = cs
  | [] => by simp [splitP, joinL]
  | c :: cs => by
    have ih := joinL_splitP sep cs
    simp only [splitP]
    split
    · next h =>
      cases hs : splitP (fun c => c == sep) cs with
      | nil => exact absurd hs (splitP_ne_nil _ _)
      | cons x xs =>
        rw [hs] at ih
        simp only [joinL, List.nil_append, ih]
        simp only [beq_iff_eq] at h
        rw [h]; rfl
    · cases hs : splitP (fun c => c == sep) cs with
      | nil => exact absurd hs (splitP_ne_nil _ _)
      | cons x xs =>
        rw [hs] at ih
        cases xs with
        | nil => simp only [joinL] at ih ⊢; rw [ih]
        | cons y ys => simp only [joinL, List.cons_append] at ih ⊢; rw [ih]

theorem pySplit_two {v p ty : String} (h : pySplit ':' v = [p, ty]) : IsQType v p ty := by
  unfold pySplit at h
  have hj := joinL_splitP ':' v.toList
  have hn : ∀ w ∈ splitP (fun c => c == ':') v.toList, ':' ∉ w := by
    intro w hw hc
    have := splitP_no_sep hw _ hc
    simp at this
  generalize splitP (fun c => c == ':') v.toList = l at h hj hn
  match l, h with
  | [a, b], h =>
    simp only [List.map_cons, List.map_nil, List.cons.injEq, and_true] at h
    obtain ⟨rfl, rfl⟩ := h
    refine ⟨?_, ?_, ?_⟩
    · apply String.ext
      rw [← hj]
      simp [joinL, String.toList_append, String.toList_ofList]
    · rw [String.toList_ofList]; exact hn a (by simp)
    · rw [String.toList_ofList]; exact hn b (by simp)

theorem isQType_unique {v p ty p' ty' : String} (h : IsQType v p ty) (h' : IsQType v p' ty') : p = p' ∧ ty = ty' := by
  have := (pySplit_eq h).symm.trans (pySplit_eq h')
  simpa using this

theorem getTypeInfo_ok {e : Elem} {p ty : String} :
    getTypeInfo e = .ok (p, ty) ↔ ∃ v, e.get? tagXsiType = some v ∧ IsQType v p ty := by
  unfold getTypeInfo
  constructor
  · intro h
    split at h
    · cases h
    · next v hv =>
      refine ⟨v, hv, ?_⟩
      split at h
      · next a b hab =>
        simp only [Except.ok.injEq, Prod.mk.injEq] at h
        obtain ⟨rfl, rfl⟩ := h
        exact pySplit_two hab
      · cases h
  · rintro ⟨v, hv, hq⟩
    rw [hv]
    simp only [pySplit_eq hq]

theorem getExtNamespace_ok {c : Ctx} {p ty v : String} (hv : c.e.get? tagXsiType = some v) (hq : IsQType v p ty)
    {ns : String} : getExtNamespace c = .ok ns ↔ NsMap.get? c.env (some p) = some ns := by
  unfold getExtNamespace
  rw [hv]
  simp only [pySplit_eq hq, List.headD_cons]
  cases h : NsMap.get? c.env (some p) <;> simp

/-- The element's `xsi:type` is `p:ty` and the prefix is bound to `ns` in scope. -/
def Ctx.TypedAs (c : Ctx) (p ty ns : String) : Prop :=
  ∃ v, c.e.get? ⟨some "http://www.w3.org/2001/XMLSchema-instance", "type"⟩ = some v ∧ IsQType v p ty ∧
    NsMap.get? c.env (some p) = some ns

theorem wanted_ok {v : Vocab} {c : Ctx} {b : Bool} : v.wanted c = .ok b →
    ∃ p ty ns, c.TypedAs p ty ns ∧ (b = true ↔ ns = v.ns ∧ ty ∈ v.oldTypes) := by
  intro h
  simp only [Vocab.wanted] at h
  split at h
  · cases h
  · next al ty hi =>
    obtain ⟨s, hs, hq⟩ := getTypeInfo_ok.1 hi
    split at h
    · cases h
    · next ns hn =>
      refine ⟨al, ty, ns, ⟨s, hs, hq, (getExtNamespace_ok hs hq).1 hn⟩, ?_⟩
      split at h
      · next hne =>
        simp only [Except.ok.injEq] at h; subst h
        simp only [Bool.false_eq_true, false_iff]; exact fun hh => hne hh.1
      · next hne =>
        split at h
        · next hm => simp only [Except.ok.injEq] at h; subst h; simp only [Bool.false_eq_true, false_iff]; exact fun hh => hm hh.2
        · next hm =>
          simp only [Except.ok.injEq] at h; subst h
          simp only [true_iff]
          exact ⟨Decidable.not_not.1 hne, Decidable.not_not.1 hm⟩

theorem wanted_typed {v : Vocab} {c : Ctx} {p ty ns : String} (h : c.TypedAs p ty ns) :
    v.wanted c = .ok (decide (ns = v.ns ∧ ty ∈ v.oldTypes)) := by
  obtain ⟨s, hs, hq, hn⟩ := h
  unfold Vocab.wanted
  rw [getTypeInfo_ok.2 ⟨s, hs, hq⟩]
  simp only
  rw [(getExtNamespace_ok hs hq).2 hn]
  by_cases h1 : ns = v.ns <;> by_cases h2 : ty ∈ v.oldTypes <;> simp [h1, h2]

theorem typedAs_unique {c : Ctx} {p ty ns p' ty' ns' : String} (h : c.TypedAs p ty ns) (h' : c.TypedAs p' ty' ns') :
    p = p' ∧ ty = ty' ∧ ns = ns' := by
  obtain ⟨s, hs, hq, hn⟩ := h
  obtain ⟨s', hs', hq', hn'⟩ := h'
  rw [hs] at hs'; cases hs'
  obtain ⟨rfl, rfl⟩ := isQType_unique hq hq'
  rw [hn] at hn'; cases hn'
  exact ⟨rfl, rfl, rfl⟩

theorem hit_iff {v : Vocab} {c : Ctx} : v.hit c = true ↔
    c.anc ≠ [] ∧ ∃ p ty, c.TypedAs p ty v.ns ∧ ty ∈ v.oldTypes := by
  unfold Vocab.hit
  constructor
  · intro h
    simp only [Bool.and_eq_true, Bool.not_eq_true', List.isEmpty_eq_false_iff] at h
    refine ⟨h.1.1, ?_⟩
    have h2 := h.2
    split at h2
    · next b hb =>
      subst h2
      obtain ⟨p, ty, ns, ht, hi⟩ := wanted_ok hb
      obtain ⟨rfl, hm⟩ := hi.1 rfl
      exact ⟨p, ty, ht, hm⟩
    · cases h2
  · rintro ⟨ha, p, ty, ht, hm⟩
    rw [wanted_typed ht]
    have : c.e.has tagXsiType = true := by
      obtain ⟨s, hs, _⟩ := ht
      rw [Elem.has_eq]
      show (c.e.get? tagXsiType).isSome = true
      rw [show c.e.get? tagXsiType = some s from hs]; rfl
    simp [this, ha, hm]

end Ramrod
