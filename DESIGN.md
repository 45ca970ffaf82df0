# Design of the stix-ramrod model and proofs

Source under study: `/repo` (stix-ramrod, Python).  It is read as text only.
Model and proofs: `/verif/lean`, Lean 4.33.0.

## 1. What is modelled

An XML document is an inductive tree (`Verif/Xml.lean`).  An element carries its expanded name
(namespace, local name), the namespace declarations written on it, its attribute list, its text and
its tail.  Comments and processing instructions are kept as `other` nodes, because lxml counts them in
`len(node)` and they carry tails.  `node.nsmap` is computed while descending (nearest declaration of a
prefix wins).

Python's node identity is a position (list of child indices).  A Python "find, then loop and mutate"
pass is modelled as written: the finder returns a list of positions in document order, and the loop
folds one mutation per position over the tree.  `Verif/Lemmas` proves that such a loop equals one
structural traversal; properties are proved on the traversal.

* in-place change of tag/attributes/text: `modifyAt`
* replacement (`replace_xml_element`): `replaceAll`; a found node that sits inside an already replaced
  node is detached in lxml, so replacing it has no effect on the document, while errors raised when
  translating it are still raised
* removal (`remove_xml_element`): `removeAll`; the tail text goes with the node, as in lxml

Exceptions are values of an inductive type `Err`; every function that can raise returns `Except Err`.
Python dictionaries are association lists in insertion order.

Modules:

| Lean module | code modelled |
|---|---|
| `Verif/PyStr.lean` | the `str` methods used (split, join, replace, strip) |
| `Verif/Version.lean` | `distutils.StrictVersion` as used by `ramrod/utils.py`, `validate_version(s)`, `is_version_equal` |
| `Verif/Xml.lean` | the part of lxml used: tree, attributes, nsmap, XPath subset, deepcopy, remove, replace |
| `Verif/Utils.lean` | `ramrod/utils.py` |
| `Verif/Base.lean` | `ramrod/base.py` |
| `Verif/Tables.lean` | class-level tables of all updaters (generated from the source text) |
| `Verif/Cybox.lean` | `ramrod/cybox/*.py` |
| `Verif/Stix.lean` | `ramrod/stix/*.py` |
| `Verif/Api.lean` | `ramrod/__init__.py`, `stix.update`, `cybox.update`, the heap layer for non-mutation |
| `Verif/UpdateNs.lean` | `ramrod/scripts/update_ns.py` |
| `Verif/Cli.lean` | control flow of `ramrod/scripts/ramrod_update.py` |
| `Verif/Args.lean` | `_get_arg_parser` and the part of `argparse` it reaches |
| `Verif/Document.lean` | what stands beside the root: the copy of `get_etree_root`, `ResultDocument`, the new root of `update_ns.py` |
| `Verif/NsArgs.lean` | `parse_args` and the main part of `ramrod/scripts/update_ns.py` |
| `Verif/Report.lean` | what `ramrod/scripts/ramrod_update.py` prints |
| `Verif/Spec.lean` | specification vocabulary used in theorem statements, independent of the model |
| `Verif/UnitTests.lean` | the project's own unit tests (`ramrod/test`), evaluated on the model |
| `Verif/Lemmas/*.lean` | helper lemmas |
| `Verif/Props/*.lean` | the property theorems, with a concrete instance beside each |

## 2. What is not modelled

* XML parsing and serialising (`get_xml_parser`, `etree.parse`, file I/O), character encodings, CDATA
  marking (only the text value is kept), DTDs and entities.
* Choice and placement of prefixes when lxml moves nodes between documents: lxml may drop a redundant
  declaration and may add one for a moved subtree whose namespace is no longer declared above it; the model
  does neither.  In-scope lookup of the prefixes of the document is the same unless two prefixes are bound to
  one namespace.
* The full XPath language; only the shapes occurring in the code (`//p:A`, `.//p:A`, `.//p:A/q:B`,
  `[p:A]`, `[@a]`, `./p:A`, `./*`, `.`, unions) exist in the model.
* `uuid.uuid4` is an arbitrary supply of strings; uniqueness theorems state their freshness assumption.
* The `xs:dateTime` validator used by `DisallowedDateTime` and the XML parser applied to interpolated
  source text that contains markup characters are arbitrary functions (oracles).
* Error message texts and warnings (the printing of `ramrod_update` is modelled in Report.lean, as pieces of text).
* Python 2: Python 3 semantics is assumed.  Under Python 2 `"...".format(node.text)` in stix_1_1.py raises
  UnicodeEncodeError for a source text outside ASCII; here it does not.
* A document passed in is assumed to be the root of its tree (no parent element).
* Recursion limits, memory, concurrency (the code is single-threaded and keeps no state).

## 3. Trusted base

* Lean's kernel.
* Axioms: at most `propext`, `Classical.choice`, `Quot.sound` (checked by `#print axioms` / `vcheck` for
  every theorem).  No axioms of our own, no `sorry`, no `native_decide`, no `bv_decide`.
* The reading of the Python source: definitions cite file and lines.
* The behaviour of lxml, `distutils.version`, and Python's `str`/`dict` as described in section 1; for C70, that a deep copy of
  an element and a newly made element stand alone in their documents.
* `Verif/Tables.lean` is generated by parsing the literals in the source text; the tables are inspected
  by eye against the cited lines.
* As a check of that reading, every unit test of `ramrod/test` that exercises modelled code (all but
  `ResultDocumentTest`, which tests printing) is transcribed in `Verif/UnitTests.lean` and holds of the model.
  Three of these tests check nothing in the code's result, because the path they look under selects no
  element: `TransNetPacketProtoAddrSize` (wrong prefix), `TransWinMailslotHandle` (the name keeps the namespace
  of the inner handle), `TransCommonContributors` (`ContributingSources` for `Contributing_Sources`).

## 4. Plan per property

Each line: what is modelled / how it is proved.  "negation" means the code violates the claim: the
negation is proved with a concrete witness and a `_partial` theorem states what does hold.

* C01 dispatch: `Api.update`; case analysis on the root name for all arguments.
* C02 validation: `validateVersions` over arbitrary strings; iff-characterisation against an explicit
  release list.
* C03 chain steps: chain loop emits a trace; trace equals the slice of the release list.
* C04 composition: fold over appended slices; equality in the exception monad.
* C05 target version: invariant "root tag and version attribute" through every pass of every step.
* C06 non-mutation: heap layer with handles; the caller's handle has the same content in every outcome.
* C07 unforced removes nothing: induction over the chain.
* C08 UpdateError iff: unfold `check_update`; finders characterised by a declarative predicate on
  positions.
* C09 wrong version refused: CybOX full; STIX negation (only the first package is looked at) + partial; all seven steps with
  embedded CybOX content in `C09_steps_partial`.  The element, expected and found version recorded in the exception: `C09_blame`,
  `C09_update_blame`.
* C10 checks off: case analysis per updater.
* C11 force suppresses: error-set analysis of `_clean` and `_update`.
* C12 forced total: the conditions under which a document is "in order" are stated element by element and shown to be kept by
  cleaning and by every pass of every step, so that they carry through the chain; negations for every condition.
* C13 clean complete: CybOX full (finders are monotone under removal); STIX negation + partial.
* C14 clean minimal: removal characterised by positions.
* C15 unique ids: supply assumed injective, constant length, unused in the document.
* C16 remapping frame: per-position statement.
* C17, C18 schemaLocation: list-level specification of pairs; round trip of join/split; the separators are Python's table of white
  space (`C17_white_space`, Props/White).
* C19, C20 vocabularies: per-position statement, plus absence of old types; negation for the two
  vocabularies whose reference is a tuple (TypeError).
* C21 options off: frame theorems.
* C22 optional elements: the sequence of removals is one removal (emptiness is not changed by removing empty elements);
  switching the option is compared with the same step without it; negations for tail text and for text after comments.
* C23 versions: (for the 1.2 step, Props/RootVersion: of the list of versions in the document only that of the root changes)
  invariant through later passes; negation for 1.2 (nested constructs keep 1.2) and for a
  related campaign carrying a version attribute.
* C24 CybOX version attributes: round trip.
* C25, C26 namespace renaming: the pass is one edit per element; the in-scope bindings before and after are related by
  induction over the walk; negations for mixed content, for declarations on elements that are not themselves renamed, and for
  xsi:type prefixes declared there.  For the CybOX 2.0.1 step (`C26_cybox201_partial`, Props/Resolve) the later passes are
  followed too: none changes a declaration, and types outside the CybOX vocabularies stay.
* C27 lists: cutting a text is specified by a relation (leftmost cut); replacing is shown to be cutting and gluing; the pass is one
  edit per element whose effect is iterated once per enclosing object properties; a forced STIX 1.0 step does it to what cleaning
  leaves (`C27_stix_forced_partial`, Props/ListsForced); negations for nested properties, items
  containing the new marker, text after comments.
* C28–C30 CybOX fields: the 2.0.1 step is decomposed into stages (`Rel`: pointwise change, `Replaced`: the outermost selected
  elements are replaced, `Respelt`: renaming); negations for a missing value child, text after a comment, nested handles,
  data on the outer handle.
* C31–C33 STIX fields: the same stages for the 1.0.1 and 1.1 steps, plus negations (nested fields, contributor attributes,
  markup characters).
* C34 versions: order laws on the parsed triple.
* C35 extension namespaces: schemaLocation part proved; negation for declarations.
* C36, C37 update_ns: the renamed document is specified by relations on elements (`RenamedElem`, `SameElem`) lifted to trees;
  round trip for any pair of lists without overlap, then the shipped lists; negations for processing instructions, overlapping
  lists and the shipped table (missing comma).
* C38 CLI: control flow with an abstract file system (a map from names to documents); parsed arguments are given.  `--from ''` is
  the same as no `--from`.  Not claimed: without an output file the report is printed to standard output after the document.
* C39–C42: corollaries over the update monad. `C39_other_errors`: exceptions other than refusals are the same with and without force.
* C43 skeleton: frame theorem by composition of shape-preserving passes.
* C44 repetition: negation for two bad Date_Time fields in one Activity + partial.
* C45 checks along a chain: what a step writes is read by the next check. `step_unchecked` (a step with accepted versions is
  the step without checks) and an invariant carried along the chain loop (`chain_unchecked`).
* C46 ids and references: the values of an attribute in document order (`Node.vals`) are compared before and after.
  `C46_plain_steps` (the steps without translated fields, every document), `C46_cybox201_partial`, `C46_stix101_partial`,
  `C46_stix11_partial` (the attribute is only where the translation copies it), `C46_update_partial` (a whole unforced update of a
  document without replaced elements), `C46_none_new` (every step, forced or not: no attribute is made up, except generated ids).
  Missing: attributes on replaced elements are lost (`C46_lost_fails`); after a forced update a reference to an id used twice
  refers to nothing (`C46_dangling_fails`).
* C47 text: the characters that are not white space in document order (`Node.ink`) are compared before and after an unforced update.
  `C47_plain_steps_partial` (the steps without translated fields), `C47_cybox201_partial`, `C47_stix101_partial`,
  `C47_stix11_partial` (text of a replaced element only where the translation reads it), `C47_update_partial` (a whole update of a
  document without replaced elements).  `Node.Tidy` says there is no mixed content.  Corrected terms are listed apart from the model
  in `correctedTerms`.
  Missing: mixed content and other text of replaced elements is lost (`C47_lost_fails`); forced updates.
* C48 schema locations of the target: `C48_stix_partial` and `C48_cybox` (a whole update, forced or not: each pair on the root
  with a namespace of the target release has the location of this release), with `Fits` as a rule for locations that does not depend
  on the tables: the URL names the major version at the end of the namespace, and a third version part 1 exactly in the corrected
  releases.  `C48_core` (the core schema's location carries the number of the release), `C48_declared_partial` (a release knows
  the namespaces that the next step declares).
  Missing: target 1.2.1 (`C48_final_fails`) and two misspelt namespaces (`C48_misspelt_fails`).
* C49 what an update does not look at: `Relabel` is a renaming of prefixes, ids, values of unmanaged attributes and comment
  contents; `C49_update`, `C49_stix`, `C49_cybox`: update of the renamed document is the renamed outcome (document, error with its
  lists, removed nodes, table of new ids).  Proved by showing that every function of the model commutes with the renaming
  (`Verif/Lemmas/Relabel.lean`).  `readNames` lists the attributes whose values stay.  An `xsi:type` value is renamed up to its
  first colon.  `C49_prefixes`: with ids kept, the same options give the same answer.  The renaming is one function for the whole
  document, not one per scope.
* C50 standard output: `Verif/Report.lean` models what the tool prints to which stream; line numbers, message texts and `repr` of
  lists are arbitrary functions (`Printer`).  `C50_stdout_partial` (iff), `C50_unforced_partial`, `C50_file_partial`; negations
  `C50_stdout_fails`, `C50_heading_fails`.
* C51 the report: `C51_success`, `C51_refusal` (each line present, number of lines exact); `C51_version_partial` and the negation
  `C51_version_fails` for the element with a wrong version (on whole runs; the exception of the model records the element).
* C52 children are updated separately: `C52_split` (cut in two), `C52_each` (child by child), `C52_join` and `C52_assemble` (back
  again), `C52_order` (rearranged children; `idsInside` lists ids, no id may occur in two parts).  `Verif/Lemmas/Split.lean` shows for each pass that it respects a
  cut below the root (`Parts`), `Verif/Lemmas/Parts.lean` composes passes to steps, adds the checks, and runs the chain.  The
  id condition is needed at two steps only (1.0.1, CybOX 2.0.1); the steps before them keep ids.  Example beside it: two parts
  sharing an id are accepted separately and refused together.  Root text is left out because the 1.2 step keeps it only when the
  root has no children.
* C53 force = clean + update: `C53_cybox`, `C53_stix_partial` state equality of outcomes (document, reports, errors) with
  `cleanThenUpdate`; `C53_accepted_partial`, `C53_again_cybox`, `C53_again_partial` say that cleaning a clean document does nothing.
* C54 only documented exceptions: `C54_documented_partial` for documents in order (the hypotheses of C12), any root and any versions.
  An undocumented exception would be raised under force as well (`C39_other_errors`), which C12 excludes. Negations in section 5.

* **C55** (Props/VocabChain).  `OneMeaning`: every prefix declared for a vocabulary namespace is declared for this namespace only,
  `stixCommon` and `indicator` (used in new elements) are not among them, and the 1.2.1 vocabulary namespace is not used yet.
  `Revised`: which vocabularies the steps of a release revise, own and embedded.  An invariant of every element (`WordSafe`) is carried
  through each pass of each step; success of the vocabulary pass itself gives that every typed prefix is bound.  The last STIX step
  renames namespaces, so the conclusion is stated for old and new namespace.  Partial: `C55_rebound_fails`.
* **C56** (Props/Foreign).  A name is foreign if it has no namespace or one that does not begin like the four families of the
  languages; a part is foreign if all its elements are, and none declares a vocabulary or generic test mechanism type.
  `foreignParts` lists the foreign parts with all their content.  The theorems say that the list of the source is a sublist of the
  list of the result.  Each pass is shown to leave foreign elements alone (edits) or to keep them among what it puts in place of an
  element (replacements); the conditions on the source are carried through the early steps by `Fit`.  Elements without text and
  attributes are left out, because the removal of optional elements may take empty ones.  Partial: `Sheltered` and `CommasOwn`; see
  `C56_comma_fails`, `C56_lost_fails`, `C56_contributor_fails`.  Forced updates (Props/ForeignForced, `C56_stix_forced_partial`,
  `C56_cybox_forced_partial`): cleaning gives no foreign element a new id and reports none except instances, so a foreign part is
  whole in the cleaned document or in the first removed element around it.
* **C57** (Props/Origin).  `ElemFrom t o force e` says of one element of the result where its parts come from: `NameFrom` (a name of the
  source or one of `addedNames`, up to `spelling` and `movedNs`), `TextFrom` (`Reworded`: a chain of list conversions, stated with the
  items of C27, and corrected terms), `TailFrom`, `AttrFrom`.  `Vouched` is kept by every pass, by cleaning and so by chains.
  `C57_cybox` has no hypotheses; `C57_stix_partial` assumes that string sources have no markup characters, `C57_injection_fails` shows
  that they otherwise become markup.
* **C58** (Props/Manual).  `page20` ... `page111` transcribe the pages of the manual, independently of the tables of the code; `Page.Mentions`
  says that a page is about an element, `OnlyStamped` that two documents differ in schema locations and version numbers only.  Each
  pass is shown to be the identity on a document its page is silent about; silence is kept by the stamping passes (`silent_rel`), so
  chains follow.  The page of 1.0.1 to 1.1 includes that of CybOX 2.0.1 to 2.1, as the manual says.  `unlisted` holds what the code
  changes without a word in the manual.
* **C59** (Props/Again, Props/AgainMore, Props/AgainStix, Props/AgainRefresh, Props/AgainRefreshStep, Props/AgainMailslot, Props/AgainMailslotStep,
  Props/AgainStixFields).  For each pass a condition under which it does nothing (`LocFixed`, `VerFixed`, `NsDone`, `ListsDone`, `VocabsDone`, `ClearOf`),
  a lemma that the pass establishes its own condition, and lemmas that the later passes keep it: passes that keep the shape of the document
  (`Node.Rel`), passes that remove elements (`Part`), passes that rename elements (`clear_edit`, `ver_rename`).  The embedded CybOX updater of
  the STIX steps is treated by the same lemmas (`left20`, `settled20`, `left201`, `settled201`).  The checks of the second run
  (`C59_stix10_step_partial`, `C59_cybox201_step_partial`, `C59_stix101_step_partial`) use the exact description of the checks (C08): the passes keep names or give new ones
  that no rule mentions, keep the prefixes of types, and the ids below the root are a sublist of those before.  For 1.0.1
  these are collected in `Ready`, which both kinds of passes keep (`ready_kin`, `ready_without`).  `Refresh` fields are
  described by `RefreshFixed`, which their translation establishes (`refresh_fixed`) and the later passes keep; `CameFrom` says that every element, with
  its name and the names above it, and every id comes from the document before, also through that translation.  For mailslot handles,
  `mail_mem` says where the elements come from, C30 that no two-level handle is left (`handles_prep`), and `CameVia` replaces
  `CameFrom`, since elements lose an ancestor.  In STIX 1.0.1 packages the
  embedded updater leaves the same conditions (`left_handle`, `two_left`, `kept_handle`), and the STIX passes after it keep them.  Left out: documents with the
  other rebuilt fields for which the property may hold.
* **C60** (Props/Args).  `Spells` says, without reference to the parser, how a list of settings can be written down; `Asks` which arguments a list of
  settings asks for.  `read_inv`, `read_abbrev`, `read_joined` and `read_standing` describe how one argument is read; `spells_run` and `run_spells`
  lift this to command lines by induction.  The table of options is checked by `decide +kernel`.  Trusted: the rules of `argparse`, written down
  from `Lib/argparse.py` of CPython 3.11.  The model was compared with that module on 9000 random command lines (a parser with the same options,
  not the code of the repository); there was no difference.  Older and newer versions differ in details such as `-f=f` or `--`.
* **C61** (Props/Lost, Lemmas/Gather).  `held` sums any measure over a list of elements.  `prune_keeps`: a removal keeps every element under no removed
  position; `walk_under`: the elements at or below an element are those of its subtree; `copies_hold`: each removed element is held by the copy of the
  first reported element above it.  Together `cut_holds`, for every order of removal.  The update proper keeps values and text by the lemmas of C46 and C47,
  and the chain adds up (`chain_values`, `chain_texts`).  "At least as often" is exact: an element inside a removed element can be reported twice.
* **C62** (Props/Options, Lemmas/Fresh).  `Agree` compares two documents position by position.  The proof uses a mask (`Fresh.node`) that puts the newest
  name into every type and the corrected term into every text.  The vocabulary update does not change the mask (`vocabs_hidden`), and every other part
  keeps equal masks equal: XPath selection, translations, schema locations, versions, checks, removal of optional elements, shared ids and cleaning.
  `stepUpdate_sim` and `chainLoop_sim` put this together.  Assumed of the open date parser: `DatesAlike`; an example gives a parser that satisfies it.
* **C63** (Props/Rename).  `Renames` reads the two lists side by side without the dictionary of the script.  `updNs_first` describes the first pass for
  any table (C36 and C37 need tables without cycles), `updSchemalocElem_second` the second.  Declarations that lxml adds when elements are moved are not
  represented, so the model treats more elements in place than the script does; `NoClash` is stated so that both ways give the same result.
* **C64** (Props/Meaning).  The invariant has three parts: every declaration stems from the source, up to replaced namespaces (`DeclaredFrom`), every type
  stems from a type of the source (`TypeFrom`), and the root binds every prefix of the source (`BoundAtRoot`).  `kept_step` shows it for all seven steps,
  `means_of` derives the statement.
* **C65** (Props/Unique).  `Thins q t t'` says that the values of `q` in `t'` are a subsequence of those in `t`.  It is transitive and shown pass by pass:
  changes of elements keep the values (`Meek`), replacements put a part of the replaced element in its place (`thins_replaced`), removals remove
  (`thins_without`).  Unique ids are not replaced by a forced update, since only shared ids are (`clean_spec`).  Only the 1.1 step reads source texts, so the condition on them is
  carried as `Req → …` and dropped for CybOX (`C65_cybox`; likewise `C66_cybox`).
* **C66** (Props/Comments).  `Node.notes` lists the comments of a document with their tails.  `NoNew`, shown pass by pass as for C65, says that the
  comments after a pass are a subsequence of those before; for documents without the seven lossy elements every pass keeps the list
  (`update_notes`).
* **C67** (NsArgs, Props/NsArgs).  As C60, for the second script: `NsSpells` is the grammar of command lines, by induction in both directions
  equal to what the two passes of `argparse` accept; letters put together are handled by `ncluster_psv` and `ncluster_inv`.  The model was compared
  with CPython's `argparse` on 9000 random command lines (a parser with the same options, no code of the repository), without difference.
* **C68** (Props/Switch).  `Less` (an inductive relation on trees: elements dropped with all they hold, the rest kept) is preserved by every
  pass that follows a removal, because each of them looks only at an element, its ancestors and the declarations in scope (`Twin`), or, for
  contributors, treats the children one by one.  Before the first removal both runs are equal; the two runs are followed in step through the
  chain (`chain_apart`).  Not proved: that the elements missing at the end are empty in the run without the option (each removal takes only
  empty ones, C22, but a later pass may put something into an empty element: a missing source text becomes the name `None`).
* **C69** (Props/NewIds).  Wiping all ids is a relabelling (`NewIds.blur`) that is legible but not faithful: every pass commutes with it, the
  detection of shared ids does not.  Only the steps from STIX 1.0.1 and CybOX 2.0.1 ask for new ids (the step from 1.2 inherits the detection
  but its forced clean raises `NotImplementedError`), and a chain contains at most one of them: before it both runs are equal, after it they
  are equal up to ids (`chain_upToIds`).  The sources parsed by the step from 1.1 may hold ids; the wiped run uses a parser with wiped
  results (`NewIds.wiped`), so nothing is assumed about the parser.
* **C70** (Document.lean, Props/Prolog).  `Document` adds what stands beside the root.  The layer is the same chain of steps on documents, each
  starting from a copy of the root (`copyRoot`); it is shown equal to `update` on the root with nothing beside it (`C70_root_partial`), which
  needs that a successful chain has at least one step (C02).
* **C71** (Props/Embed, Props/Embedded).  `Inside t a` relates a package with one `stix:Observables` to a CybOX document with the same children,
  the same namespaces in scope and the same version; positions differ by a trailing `0`, ancestors in their last entries.  Each pass of the
  steps with a CybOX updater inside (`stix10_embeds`, `stix101_embeds`) keeps the relation, with the selectors and the joined namespace map of
  the embedded updater checked by evaluation (`parentsOff`, `headsOff`, `contentOff`); each STIX pass keeps it with the CybOX document unchanged
  (`Spares`); the checks of the package imply those of the CybOX document.  Siblings of `Observables` are cut off with C52.
* **C72** (Props/Spelling).  `SameBut names e e'`: two roots equal up to the values of the attributes `names`.  `Near` lifts this to documents;
  every pass before the version is written keeps it (`near_schemalocs`, `near_ns`, `near_off`, `near_lists`, `tracks_…`), writing the version
  makes the documents equal (`merges_…`), so only the first step of a run sees a difference.  The checks agree (`AgreeOn`: both pass, or both
  raise an error that force overrides or both one that it does not) as the comparison only sees the parsed numbers; cleaning does the same on
  both, as nothing found is the root (`force_near`).  Failures are evaluated.
* **C73** (Props/RootAttrs).  The relation `Near` of C72 with other attributes: all passes of all steps keep it (`track_…`), searches find the
  same positions since none looks at the root, the checks agree since the version is not among the attributes; induction over the chain, whose
  last step may rename the root (`chain_tracks`).
* **C74** (Props/UniqueIds).  `idsOf t`: the ids of the document, root included, in document order.  `InSight nss t`: every id stands below
  the root in a known namespace or occurs once.  The step that looks at ids passes its check only if no id is shared (`check_unshared`), or
  cleans, after which the ids are unique given fresh new ones (`check_step`, from `clean_spec`); translations and later steps only drop ids
  (`thins_update`, `ids_chain` of C65).  The 1.0 and 2.0 steps keep name and id of every element (`SameId`), hence `InSight` (`early_step`).
  Failures are evaluated.
* **C75** (Props/Quiet).  A step is refused for content only if its searches find something (`refused_content`); cleaning repeats the same
  searches, so it reports something (`clean_reports`); what a later step adds never empties a report (`dictUpdate_ne`).  Induction over the
  chain (`quiet_chain`).  Version checks raise no error with a list of content (`noList_…`).
* **C76** (Props/Calls).  Per group and per table of groups the reported pairs are the calls from the counter on (`calls_group`,
  `calls_groups`).  Of the steps of a chain only one looks for shared ids (`mute_stix`, `mute_cybox`), so merging the reports of the steps
  loses nothing (`chain_recorded`).
* **C77** (Props/VersionCheck).  Every check is the check without versions or fails for a version (`check_parts`).  A forced step after such
  a failure cleans; if the document is accepted without version checks, cleaning does nothing (`accepted_clean`), so the result is that of
  the plain update (`force_accepted`); if not, both sides clean (`cleanable_check`).  Induction over the chain (`chain_off`, `chain_on`).
* **C78** (Props/OwnVersion).  Without `--from` the version of the root is used (C42, `own_version`); with it the version checks are off
  (`options_named`); both together with C77 give the two directions.
* **C79** (Props/NewIdsHeld).  After cleaning, each new id is in the edited document, which is split between the cleaned one and the removed
  copies (`clean_found`, from `clean_holds` of C61).  Updates of documents without replaced elements keep all ids (`update_lossless`); the
  later steps rename none (`mute_found`, `chain_found`).
* **C80** (Props/Announce).  A refusal carries the lists that the cleaning computes itself (`refused_exact`); the specification of the
  reported elements determines the list (`reportsAll_unique`), so C15's description of the removed copies applies to the announced ones;
  no step after the one that looks for shared ids removes or renames anything (`Still`, `Mute`).  `C80_more` shows why the claim for the
  first STIX step is only about the beginning of the list.

## 5. Disagreements between code and claims

Recorded here as they are proved (theorem names in MANIFEST.json).

* C23, step 1.1 → 1.1.1 (`C23_related_campaign_fails`): `_update_versions` runs before `_translate_fields`
  (stix_1_1.py:397-409).  A `version` on `indicator:Related_Campaign` is not selected by the version pass;
  the translation then turns the element into `stixCommon:Campaign`, which keeps the old number.
* C23, step 1.2 → 1.2.1 (`C23_nested_package_fails`): stix_1_2.py:79 sets the version of the root only.
* C19 (`C19_tuple_reference_fails`): `VOCAB_REFERENCE` of `PlanningAndOperationalSupportVocab`
  (stix_1_0.py:27) and `ObjectRelationshipVocab` (cybox_2_0_1.py:19) ends in a comma and is a tuple; an
  outdated value carrying `vocab_reference` makes the update raise `TypeError`, forced or not.
* C21 (`C21_list_text_fails`): `_update_lists` (cybox_2_0.py:229-254) rewrites the text of every descendant
  of an object's Properties, also of a controlled-vocabulary value, whatever `update_vocabularies` says.
* C09 (`C09_second_package_fails`): the loop over the package roots in `STIXUpdater._check_version`
  (stix/base.py:84-118) returns in its first iteration, so a nested `STIX_Package` of another version is accepted.
* C09 (`C09_malformed_fails`): a version that `StrictVersion` cannot parse raises `ValueError`, not
  `UnknownVersionError`/`InvalidVersionError` (base.py, utils.py).
* C08 (`C08_malformed_type_fails`): the finders of the steps from 1.0 and 1.0.1 read the type of every descendant
  (base.py, utils.py `get_type_info`); an `xsi:type` without a prefix raises `ValueError` before any untranslatable
  content is reported.
* C14 (`C14_tail_fails`): removal is `parent.remove(node)`, which in lxml takes the text after the node (its tail) along,
  although that text belongs to the parent (utils.py `remove_xml_element`).
* C13 (`C13_left_fails`): the STIX finders of `ttp:Malware` and `ttp:Attack_Patterns` elements look at the children before
  anything is removed; an element with children of two untranslatable kinds is kept, loses them, and is then reported by
  the same check (`all` over no children, stix_1_0.py and stix_1_0_1.py).
* C44 (`C44_dates_fails`): `DisallowedDateTime._interrogate` (stix_1_0_1.py:143-154) lists the activity once per invalid
  date.
* C44 (`C44_overlap_fails`): an element found by two finders is listed, and copied to the removed collection, twice.
* C22 (`C22_tail_fails`, `C22_inner_fails`): `_is_empty` (base.py:392-400) looks at `text` only, which in lxml ends at the
  first child node, comment or not; text after an inner comment or element does not count.  Removal takes the tail along,
  as in C14.
* C28 (`C28_no_value_fails`): `_translate_value` of DNT and Vary (cybox_2_0_1.py:170-180) takes element 0 of an xpath result; a
  field without `URIObj:Value` ends the update with `IndexError`, forced or not.
* C28 (`C28_comment_fails`): only `text` of the value is copied, which in lxml ends at the first comment.
* C30 (`C30_nested_fails`): the handles are collected before any is replaced, and the copy of the inner handle still has the
  handle inside it (cybox_2_0_1.py:209-223), so a two-level handle is left.
* C30 (`C30_outer_lost`): attributes and text of the outer handle are dropped with it.
* C31 (`C31_nested_target_fails`, `C31_nested_campaign_fails`): the nodes are collected before any is replaced, and the
  replacement is a deep copy; a field inside a replaced field is translated in the discarded original, not in the copy.
* C32 (`C32_comment_fails`): iterating the list yields comments, and setting the tag of a comment raises `AttributeError`.
* C32 (`C32_list_lost`, `C32_nested_fails`): attributes and text of the list are dropped; a list in a list stays.
* C33 (`C33_markup_fails`): the text is put into an XML template without escaping, so `AT&T` cannot be parsed. The theorem is
  for any parser that refuses the resulting document.
* C33 (`C33_empty_fails`): a source without text becomes one named `None`.
* C33 (`C33_rest_lost`): attributes, children and text after a comment are dropped.
* C25 (`C25_mixed_fails`): `_update_nsmap` (base.py) builds a new element with the text of `get_node_text`, which is none for a
  node with children, and never copies the tail; text beside child elements and after elements is lost.
* C25 (`C25_declaration_fails`), C26 (`C26_stix_fails`): declarations are rewritten on renamed elements only.
* C26 (`C26_cybox_fails`): the usual 2.0.1 document declares the object namespaces on `cybox:Observables`, which is not renamed;
  `xsi:type="WinDriverObj:..."` on `cybox:Properties` keeps the old namespace while the elements below get the new one.
* C35 (`C35_declarations_fail`): `DISALLOWED_NAMESPACES` is consulted when declarations are rewritten, which happens on renamed
  elements only; the steps from 1.0 and 1.0.1 rename nothing.
* C36 (`C36_pi_fails`): `update_namespaces` skips comments and entities but not processing instructions; `split_braced_name`
  (update_ns.py:94) then indexes a non-string tag and raises `TypeError`.
* C36 (`C36_overlap_fails`): with lists that overlap (`a b` to `b c`) a child element sees the already renamed scope of its
  parent, so its declarations are mapped twice.
* C37 (`C37_fails`): a comma is missing after `TestMechanism#Generic-1` in `STIX_NS_1_2` (update_ns.py), so two strings are
  concatenated and the zipped tables are misaligned: Generic and OpenIOC are left alone, OVAL becomes OpenIOC, Snort becomes
  OVAL, YARA becomes Snort, CVRF becomes YARA.
* C27 (`C27_nested_fails`): `_update_lists` (cybox_2_0.py:246-254) visits the descendants of every `cybox:Properties`; with
  properties inside properties the inner texts are converted twice, and a decoded comma becomes a delimiter.
* C27 (`C27_marker_fails`): an item that contains `##comma##` (or ends in `##comma`) is not escaped.  `C27_comment_fails`: only
  `child.text` is converted, not the text after a comment.
* C12 (ramrod/stix/stix_1_2.py): a forced step from 1.2 raises NotImplementedError when there is anything to force, for example a
  wrong version on the root (`C12_step12_fails`).
* C12: `force` does not help with malformed version numbers, with `xsi:type` values that have no colon or an unbound prefix
  (`C12_malformed_version_fails`, `C12_malformed_type_fails`), or with the contents that make a pass raise
  (`C12_reference_fails`, `C12_content_fails`).
* C45 (`C45_embedded_fails`): the 1.0 step looks for CybOX content in three places, the 1.0.1 step in five
  (`_init_cybox_updater` in stix_1_0.py and stix_1_0_1.py).  CybOX 2.0 content in `ttp:Targeted_Technical_Details` or
  `coa:Parameter_Observables` of a 1.0 document is not updated by the first step and refused by the second.
* C46 (`C46_lost_fails`): the id of `stixCommon:Contributors`, of the outer `WinMailslotObj:Handle`, of a header field with a URI
  value and of a string source is dropped without report; a reference to it then refers to nothing.
* C46 (`C46_dangling_fails`): `_clean_duplicates` gives every occurrence of an id used twice a new id, also the first one, and
  leaves `idref` attributes alone; every reference to this id is left dangling.
* C47 (`C47_lost_fails`): text beside a comment in an element whose namespace is renamed, text on `stixCommon:Contributors`, text
  inside a child of `HTTPSessionObj:Refresh` and text after this element are dropped without report.
* C48 (`C48_misspelt_fails`): stix_1_0_1.py:337 files the location of the CAPEC extension under `…/extensions/AP#CAPECa2.7-1`; all
  other places use `…/extensions/AP#CAPEC2.7-1`.  The `NSMAP` tables of STIX 1.0.1 to 1.1.1 declare the identity extension as
  `…/extensions/Identity#stix-ciq3.0-1`, the location tables as `…/extensions/Identity#CIQIdentity3.0-1`.
* C48 (`C48_final_fails`): the step 1.2 to 1.2.1 renames the namespaces in `xsi:schemaLocation` but has no locations for them; the
  result points from the new namespaces to the schemas of the old ones.
* C49 (`C49_comment_fails`): the content of a comment never matters, but its presence does: `DisallowedWindowsMailslotHandle`
  tests `len(node) > 1` (cybox_2_0_1.py:66), which counts comments.  A mailslot handle with one handle and a comment is refused.
* C50 (`C50_stdout_fails`): without `--outfile` the document goes to standard output, and `_write_removed` and
  `_write_remapped_ids` print their report to the same stream after it; `ramrod_update.py -f --infile a.xml > b.xml` writes a file
  that is not XML.  `C50_heading_fails`: `_print_update_error` uses `print` for one heading (line 75) and standard error for the
  rest.
* C51 (`C51_version_fails`): `if node:` (ramrod_update.py:93) is false for an lxml element without children, so the element with the
  wrong version is not named.
* C53 (`C53_left_fails`, `C53_malformed_fails`, `C53_stix12_fails`): cleaning twice removes more than cleaning once (STIX 1.0 step, see
  C13); a malformed version makes the forced step raise `ValueError` before anything is cleaned; the 1.2 step has no
  `_get_disallowed`, so `clean()` raises `NotImplementedError` on every document.
* C54 (`C54_malformed_version_fails`, `C54_malformed_type_fails`, `C54_reference_fails`, `C54_content_fails`): unforced updates raise
  `ValueError`, `KeyError`, `TypeError`, `IndexError`, `AttributeError` and `XMLSyntaxError`, none of which `update()` documents
  (ramrod/__init__.py:45-56); the documents are those of C12.
* C55 (`C55_rebound_fails`): the mailslot translation of CybOX 2.0.1 replaces the outer handle by the inner one and drops the
  namespace declarations of the outer one; a type of the inner handle can then mean an outdated vocabulary of the step before.
* C56 (`C56_comma_fails`): `_update_lists` (cybox_2_0.py) works on every descendant of `cybox:Properties`, so commas in the text of
  foreign elements become `##comma##`.  `C56_lost_fails`: a foreign element inside a translated HTTP header field is dropped without
  report.  `C56_contributor_fails`: every child of `stixCommon:Contributors`, also a foreign one, is renamed to
  `stixCommon:Identity`.
* C57 (`C57_injection_fails`): `TransCommonSource` and `TransSightingsSource` (stix_1_1.py) put the text of a source into an XML template
  with `str.format` without escaping it and parse the result.  A source whose text is `<e xmlns="urn:x"/>` (escaped in the file) becomes
  an element of the result.  The witness has a parser that answers for this one text as XML prescribes.
* C58 (`C58_unlisted_fails`, `C58_types_fails`, `C58_no_page_fails`): the manual does not list that `HTTPSessionObj:X_Requested_For` is renamed,
  that empty `LinuxPackageObj:Name`, `ProductObj:Product` and `ProductObj:Vendor` are removed, that the step from 1.0.1 revises
  `MotivationVocab-1.0`, or anything of the update to 1.2.1.  Read along the way, not used in a proof: the manual calls
  `AvailabilityLossTypeVocab` `AvailabilityLossVocab`; its example has `WinHandleObj:Handle` as the result for a mailslot where the code
  produces `WinMailslotObj:Handle`; and the page of CybOX 2.0.1 says `cybox_minor_version` where `cybox_update_version` is set to 1.
* C59 (`C59_lists_fails`, `C59_sources_fails`, `C59_campaign_fails`, `C59_headers_fails`): with the version check off, a second run of a step
  damages its own result.  From 2.0, a value `a&comma;b` becomes `a,b` and then a list of two values; from 1.1, the name in a structured
  `stixCommon:Source` is replaced by white space and a related campaign is wrapped twice; from 2.0.1, a `DNT` header makes the second run raise
  an `IndexError`.  A user gets there with `--from` on a document that is newer than they say.
  (`C59_handles_fails`, `C59_contributors_fails`, `C59_targets_fails`): the first run translates only the outermost of nested mailslot handles,
  contributors and exploit targets, the next run the next one.  (`C59_emptied_fails`): when removing an empty marking structure leaves a
  `ttp:Malware` without child elements, the second run takes it for a MAEC description and refuses it (`all` of no children is true).
* C61 (`C61_lost_fails`): a forced update reports what it removes before the update, but not what the translations drop.  The id of a
  `stixCommon:Contributors` list is neither in the result nor in the removed elements nor in the table of replaced ids.
* C62 (`C62_converse_fails`): turning the vocabulary update on can turn a successful update into a `TypeError` (the cause is the one given for C19).
* C63 (`C63_clash_fails`): when two attributes of an element differ in the namespace only and the lists map one namespace to the other, the script keeps
  one of them and silently drops the other.  Lists of different length are accepted; the entries without partner are ignored (`zip`).
* C64 (`C64_dropped_fails`): the value of an HTTP header field is put into a new element with the attributes of the value, `xsi:type` included, but without
  its declarations; the prefix of the type is then not declared, and the vocabulary update, if on, raises `KeyError`.  C64 (`C64_rebound_fails`): flattening a mailslot handle drops the declarations of the
  outer handle, and a type below it can change its namespace.
* C65 (`C65_markup_fails`): the text of a source is parsed as XML (see C57); an id in it can be one the document already has.
* C66 (`C66_lost_fails`): translating a field to its value, and removing an empty optional element, lose the comments in it.
  (`C66_markup_fails`): text of a source that looks like a comment becomes a comment.
* C56 (`C56_instance_fails`): `DisallowedMAEC` and `DisallowedCAPEC` (stix_1_0.py, stix_1_0_1.py) match every element with the type,
  whatever its name; a foreign element that holds such an element loses it in a forced update.
* C68 (`C68_text_fails`): `_update_nsmap` copies the text of an element only if it has no child nodes (`get_node_text`), so removing its only
  child in an earlier step saves its text.  (`C68_on_fails`): `OptionalGenericTestMechanismFields` resolves the prefix of every `xsi:type` and
  raises for an undeclared one, also when vocabularies are not updated.  (`C68_off_fails`): contributors with a comment inside an empty
  optional element make the update fail only if optional elements are kept.
* C70 (`C70_lost`, `C70_fails`): `get_etree_root(root, make_copy=True)` copies the root element, not the tree, so comments and processing
  instructions before and after the root (licenses, `xml-stylesheet`) are missing from every updated document, without a report.
  (`C70_script_fails`): `update_ns.py` replaces the root by an element made in a new document and loses them as well, unless no namespace
  declared at the root is renamed.
* **C72.**  Versions are compared in two ways.  `_check_version` compares numbers (`StrictVersion`), so a package with version `1.00.0` passes the
  check for 1.0; `validate_version` looks the string up in a list, so the same package is refused with `InvalidVersionError`, even with
  force, unless the caller says `from_='1.0'` (`C72_default_fails`).  In the same way `to_='1.1.0'` is refused although it is 1.1
  (`C72_argument_fails`).
* **C74.**  The check for duplicate ids does not see the root: a package with the id of an element in it passes the 1.0.1 step without force
  and keeps both ids (`C74_root_fails`).  Elements in namespaces the step does not know are not looked at either, even when forced
  (`C74_foreign_fails`); and packages that start at 1.1 or later are never checked (`C74_later_fails`).
* **C79.**  A list of contributors that shares its id with another element gets a new id, which is reported; the translation then builds the
  list anew without it.  The report names an id that is nowhere in the result (`C79_replaced_fails`).
