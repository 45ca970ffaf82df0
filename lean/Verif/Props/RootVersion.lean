import Verif.Props.Ids
/-!
# The version in the step from STIX 1.2: C23
-/

namespace Ramrod

open Samples

/-! ## Helpers -/

mutual
theorem rel_seen {α : Type} {f : Elem → α} {P : Elem → Elem → Prop} (hP : ∀ e e', P e e' → f e' = f e) (pos pos' : Pos) (env env' : NsMap)
    (anc anc' : List QName) : ∀ {a b : Node}, Node.Rel P a b →
    (b.walk pos' env' anc').map (fun c => f c.e) = (a.walk pos env anc).map (fun c => f c.e)
  | .elem _ _, .elem _ _, h => by
    simp only [Node.Rel] at h
    simp only [Node.walk, List.map_cons]
    rw [hP _ _ h.1, rels_seen hP _ _ _ _ _ _ _ _ h.2]
  | .other _ _, .other _ _, _ => by simp [Node.walk]
  | .elem _ _, .other _ _, h => by simp only [Node.Rel] at h
  | .other _ _, .elem _ _, h => by simp only [Node.Rel] at h
theorem rels_seen {α : Type} {f : Elem → α} {P : Elem → Elem → Prop} (hP : ∀ e e', P e e' → f e' = f e) (pos pos' : Pos) (i i' : Nat)
    (env env' : NsMap) (anc anc' : List QName) : ∀ {a b : List Node}, Node.Rels P a b →
    (Node.walks pos' i' env' anc' b).map (fun c => f c.e) = (Node.walks pos i env anc a).map (fun c => f c.e)
  | [], [], _ => by simp [Node.walks]
  | _ :: _, _ :: _, h => by
    simp only [Node.Rels] at h
    simp only [Node.walks, List.map_append]
    rw [rel_seen hP _ _ _ _ _ _ h.1, rels_seen hP _ _ _ _ _ _ _ _ h.2]
  | [], _ :: _, h => by simp only [Node.Rels] at h
  | _ :: _, [], h => by simp only [Node.Rels] at h
end

/-! ## C23 -/

/-- C23 for 1.2 → 1.2.1: the step makes the version of the root `1.2.1` and leaves all other versions as they are: the versions of the
elements of the result, in document order, are those of the document with the first one replaced. Partial: the statement asks for the new
version on every package, and nested ones keep the old (`C23_nested_package_fails`). -/
theorem C23_stix12_partial (o : Options) (k k' : Nat) (t : Node) (r : Result) (h : stepUpdate stix12 o false k t = .ok (r, k')) :
    r.doc.elems.map (fun c => c.e.get? (.plain "version")) =
      (t.elems.map (fun c => c.e.get? (.plain "version"))).set 0 (some "1.2.1") := by
  have hu := unforced_update h
  simp only [stix12, stix12Update, Except.ok.injEq] at hu
  rw [updateSchemalocs_eq, updateNamespaces_eq] at hu
  have hr : Node.Rel (fun e e' => e'.get? (.plain "version") = e.get? (.plain "version")) t
      ((t.edit (nsEdit stix12Cls)).edit (schemalocEdit stix12Cls)) := by
    refine Node.Rel.comp (P := fun e e' => e'.get? (.plain "version") = e.get? (.plain "version")) (Q := fun e e' => e'.get? (.plain "version") = e.get? (.plain "version")) (fun a b c h1 h2 => Eq.trans h2 h1)
      (rel_mapCtx ?_ _ _ _ _) (rel_mapCtx ?_ _ _ _ _)
    · intro c
      unfold nsEdit
      split <;> rfl
    · intro c
      unfold schemalocEdit
      split
      · exact updateSchemalocsElem_get? stix12Cls c.e (by decide)
      · rfl
  rw [← hu]
  revert hr
  generalize (t.edit (nsEdit stix12Cls)).edit (schemalocEdit stix12Cls) = d
  intro hr
  cases t with
  | other _ _ =>
    cases d with
    | other _ _ => simp [setRootVersion, Node.elems, Node.walk]
    | elem _ _ => simp only [Node.Rel] at hr
  | elem e ks =>
    cases d with
    | other _ _ => simp only [Node.Rel] at hr
    | elem e' ks' =>
      simp only [Node.Rel] at hr
      simp only [setRootVersion, Node.elems, Node.walk, List.map_cons, List.set_cons_zero]
      rw [rels_seen (fun _ _ h => h) _ _ _ _ _ _ _ _ hr.2]
      congr 1
      show Attrs.get? (Attrs.set e'.attrs _ _) _ = _
      rw [attrs_get_set]
      rfl

example : ∃ r, stepUpdate stix12 o0 false 0 docNested = .ok r ∧
    r.1.doc.elems.map (fun c => c.e.get? (.plain "version")) = [some "1.2.1", none, some "1.2"] := ok_of_eval (by decide +kernel)

end Ramrod
