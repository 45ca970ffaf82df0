/-!
# Python `str` methods used by the code

Strings are Lean `String`s (sequences of code points, like Python 3 `str`).  All functions work on the
list of characters, so that they can be reasoned about by list induction.
-/

namespace Ramrod

/-- Python `str.isspace` for one code point; the separators of `str.split()`
(used in ramrod/utils.py:250 and ramrod/utils.py:345).
Simplification: none, the table is Python's (bidirectional type WS/B/S or category Zs). -/
def isSpace (c : Char) : Bool :=
  let n := c.toNat
  (9 ≤ n && n ≤ 13) || (28 ≤ n && n ≤ 32) || n == 0x85 || n == 0xA0 || n == 0x1680 ||
  (0x2000 ≤ n && n ≤ 0x200A) || n == 0x2028 || n == 0x2029 || n == 0x202F || n == 0x205F || n == 0x3000

/-- Split at every character satisfying `p`; the skeleton of `str.split(sep)` for a one-character
separator (ramrod/utils.py:135, ramrod/utils.py:172) and of `str.split()` (ramrod/utils.py:250). -/
def splitP (p : Char → Bool) : List Char → List (List Char)
  | [] => [[]]
  | c :: cs =>
    if p c then [] :: splitP p cs
    else match splitP p cs with
      | [] => [[c]]
      | w :: ws => (c :: w) :: ws

/-- `s.split(sep)` for a one-character separator (ramrod/utils.py:135, 172). -/
def pySplit (sep : Char) (s : String) : List String :=
  (splitP (fun c => c == sep) s.toList).map String.ofList

/-- `s.split()` (ramrod/utils.py:250, 345): split at white space, dropping empty pieces. -/
def pySplitWs (s : String) : List String :=
  ((splitP isSpace s.toList).filter (fun w => !w.isEmpty)).map String.ofList

/-- Character-level `sep.join(l)` (ramrod/base.py:612, ramrod/utils.py:345). -/
def joinL (sep : List Char) : List (List Char) → List Char
  | [] => []
  | [w] => w
  | w :: ws => w ++ sep ++ joinL sep ws

/-- `sep.join(l)` (ramrod/base.py:612, ramrod/utils.py:345). -/
def pyJoin (sep : String) (l : List String) : String :=
  String.ofList (joinL sep.toList (l.map String.toList))

/-- Loop of `str.replace`: `skip` counts characters of the current match still to be dropped. -/
def replaceAux (old new : List Char) : Nat → List Char → List Char
  | _, [] => []
  | skip + 1, _ :: cs => replaceAux old new skip cs
  | 0, c :: cs =>
    if old.isPrefixOf (c :: cs) then new ++ replaceAux old new (old.length - 1) cs
    else c :: replaceAux old new 0 cs

/-- `s.replace(old, new)` for non-empty `old` (ramrod/cybox/cybox_2_0.py:252-253,
ramrod/base.py:685): left to right, non-overlapping. -/
def pyReplace (old new s : String) : String :=
  String.ofList (replaceAux old.toList new.toList 0 s.toList)

/-- `utils.strip_whitespace` for a non-`None` argument (ramrod/utils.py:338-345). -/
def stripWhitespace (s : String) : String :=
  pyJoin "" (pySplitWs s)

example : pySplit ':' "a:b" = ["a", "b"] := by decide
example : pySplit ':' "ab" = ["ab"] := by decide
example : pySplit ':' "" = [""] := by decide
example : pySplitWs "  a  b\tc\n" = ["a", "b", "c"] := by decide
example : pyJoin "   " ["a", "b"] = "a   b" := by decide
example : pyReplace "," "##comma##" "a,b" = "a##comma##b" := by decide
example : pyReplace "&comma;" "," "a&comma;b&comm" = "a,b&comm" := by decide
example : stripWhitespace " a b\n" = "ab" := by decide

end Ramrod
