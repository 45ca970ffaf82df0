import Verif.Xml
/-!
# Specification vocabulary

Three ways to describe a changed document by one pass from the root down, used to state what the
updaters do.  Nothing here is taken from the updated code: these are plain tree functions.  A context
`c : Ctx` describes an element by its place (tags of its ancestors, in-scope namespaces) and content.
-/

namespace Ramrod

mutual
/-- The same tree, with the data of every element replaced by `F` of its context. -/
def Node.mapCtx (F : Ctx → Elem) (pos : Pos) (env : NsMap) (anc : List QName) : Node → Node
  | .other c t => .other c t
  | .elem e ks =>
    .elem (F ⟨pos, e.decls ++ env, anc, e, ks⟩) (Node.mapCtxs F pos 0 (e.decls ++ env) (e.tag :: anc) ks)
/-- `mapCtx` on the children `i, i+1, …`. -/
def Node.mapCtxs (F : Ctx → Elem) (pos : Pos) (i : Nat) (env : NsMap) (anc : List QName) :
    List Node → List Node
  | [] => []
  | k :: ks => Node.mapCtx F (i :: pos) env anc k :: Node.mapCtxs F pos (i + 1) env anc ks
end

mutual
/-- The tree with every outermost element for which `R` gives a node replaced by that node. -/
def Node.substCtx (R : Ctx → Option Node) (pos : Pos) (env : NsMap) (anc : List QName) : Node → Node
  | .other c t => .other c t
  | .elem e ks =>
    match R ⟨pos, e.decls ++ env, anc, e, ks⟩ with
    | some n => n
    | none => .elem e (Node.substCtxs R pos 0 (e.decls ++ env) (e.tag :: anc) ks)
/-- `substCtx` on the children `i, i+1, …`. -/
def Node.substCtxs (R : Ctx → Option Node) (pos : Pos) (i : Nat) (env : NsMap) (anc : List QName) :
    List Node → List Node
  | [] => []
  | k :: ks => Node.substCtx R (i :: pos) env anc k :: Node.substCtxs R pos (i + 1) env anc ks
end

mutual
/-- The tree without the elements (below its root) selected by `S`; everything else stays. -/
def Node.pruneCtx (S : Ctx → Bool) (pos : Pos) (env : NsMap) (anc : List QName) : Node → Node
  | .other c t => .other c t
  | .elem e ks => .elem e (Node.pruneCtxs S pos 0 (e.decls ++ env) (e.tag :: anc) ks)
/-- `pruneCtx` on the children `i, i+1, …`. -/
def Node.pruneCtxs (S : Ctx → Bool) (pos : Pos) (i : Nat) (env : NsMap) (anc : List QName) :
    List Node → List Node
  | [] => []
  | .other c t :: ks => .other c t :: Node.pruneCtxs S pos (i + 1) env anc ks
  | .elem e es :: ks =>
    if S ⟨i :: pos, e.decls ++ env, anc, e, es⟩ then Node.pruneCtxs S pos (i + 1) env anc ks
    else Node.pruneCtx S (i :: pos) env anc (.elem e es) :: Node.pruneCtxs S pos (i + 1) env anc ks
end

/-- Document-level versions, starting at the root. -/
abbrev Node.edit (t : Node) (F : Ctx → Elem) : Node := t.mapCtx F [] [] []
/-- Replacement of outermost selected elements; the root element is never replaced. -/
abbrev Node.replaceBy (t : Node) (R : Ctx → Option Node) : Node :=
  t.substCtx (fun c => if c.anc.isEmpty then none else R c) [] [] []
/-- Removal of selected elements; the root element is never removed. -/
abbrev Node.without (t : Node) (S : Ctx → Bool) : Node := t.pruneCtx S [] [] []

end Ramrod
