{"id": "C01", "title": "Only STIX packages and CybOX Observables are dispatched", "statement": "ramrod.update(doc) hands the document to the STIX chain iff its root local name is STIX_Package, to the CybOX chain iff it is Observables, and raises UpdateError for every other root name, whatever the other arguments (including force=True).", "quantifier": "every XML document and every choice of from_, to_, options, force", "why_tests_cant": "The set of root names is infinite; a test only tries a few wrong roots.", "anchors": ["ramrod/__init__.py:update"]}
{"id": "C02", "title": "Version-range validation decision table", "statement": "For either language, an update whose source version is s and target version is t runs its chain iff s and t are both supported versions and s is strictly older than t. If s (then t) is empty or missing UnknownVersionError is raised; if it is any other unsupported string InvalidVersionError is raised. In particular an update to the same or an older version is always refused, even with force=True.", "quantifier": "every pair of source/target version strings, every document, both values of force", "why_tests_cant": "Version strings are arbitrary text, and the order must agree with release order on every accepted pair.", "anchors": ["ramrod/utils.py:validate_version", "ramrod/utils.py:validate_versions", "ramrod/stix/__init__.py:update", "ramrod/cybox/__init__.py:update"]}
{"id": "C03", "title": "The chain runs every intermediate step once, in release order", "statement": "For every accepted pair (s,t) the chain applies exactly the one-step updaters of the versions v with s <= v < t, oldest first, each once, and every one of those steps has a registered updater (the lookup cannot fail).", "quantifier": "every accepted (source, target) pair and every document", "why_tests_cant": "The property couples the version tuple, the registry and the slice arithmetic; a test of one path says nothing about the others.", "anchors": ["ramrod/stix/__init__.py:update", "ramrod/stix/__init__.py:STIX_UPDATERS", "ramrod/cybox/__init__.py:update", "ramrod/cybox/__init__.py:CYBOX_UPDATERS", "ramrod/stix/common.py:STIX_VERSIONS", "ramrod/cybox/common.py:CYBOX_VERSIONS"]}
{"id": "C04", "title": "Updating in two hops equals updating in one", "statement": "If a<b<c are supported versions, updating a document from a to c gives the same outcome (document, removed nodes, remapped ids, or error) as updating it from a to b and the result from b to c, with removed lists concatenated and remapped tables merged.", "quantifier": "every document, all triples of versions, all option settings, both values of force", "why_tests_cant": "Needs equality on every document and every failure point of every intermediate step.", "anchors": ["ramrod/stix/__init__.py:update", "ramrod/cybox/__init__.py:update", "ramrod/base.py:BaseUpdater.update"]}
{"id": "C05", "title": "A successful update yields a document of the target version", "statement": "If an update to version t succeeds on a document whose root is {stix namespace}STIX_Package (resp. {cybox namespace}Observables), the version read back from the result's root is t.", "quantifier": "every such document, every accepted (source,target) pair, all options, forced or not", "why_tests_cant": "The version attribute goes through every pass of every step (namespace rewriting, translation, removal); only an invariant covers all documents.", "anchors": ["ramrod/stix/__init__.py:update", "ramrod/stix/base.py:BaseSTIXUpdater.get_version", "ramrod/cybox/base.py:BaseCyboxUpdater.get_version", "ramrod/*/*:_update_versions"]}
{"id": "C06", "title": "The caller's document is never modified", "statement": "ramrod.update, BaseUpdater.update and BaseUpdater.clean leave the document passed in unchanged whatever happens: success, forced success, or any exception.", "quantifier": "every document, every updater, options, force value and exception point", "why_tests_cant": "Mutation can hide behind any one of a dozen in-place passes or an early exception.", "anchors": ["ramrod/base.py:BaseUpdater.update", "ramrod/base.py:BaseUpdater.clean", "ramrod/base.py:BaseUpdater._force_update"]}
{"id": "C07", "title": "An unforced successful update removes and renames nothing", "statement": "If update(..., force=False) returns, its removed collection and its remapped-id table are empty.", "quantifier": "every document, every chain, all options", "why_tests_cant": "Universally quantified over documents; the emptiness must survive accumulation over several steps.", "anchors": ["ramrod/base.py:BaseUpdater.update", "ramrod/base.py:BaseUpdater._create_update_results", "ramrod/stix/__init__.py:update", "ramrod/cybox/__init__.py:update"]}
{"id": "C08", "title": "UpdateError is raised exactly for untranslatable or duplicated content", "statement": "An unforced single-step update with version checks passed raises UpdateError iff the document contains an untranslatable node for that step or (steps that check ids) two descendants in a known namespace sharing an id; the error lists exactly those nodes and those id groups.", "quantifier": "every document and every one-step updater", "why_tests_cant": "Both directions (no false alarm, no miss) over all documents.", "anchors": ["ramrod/cybox/cybox_2_0_1.py:Cybox_2_0_1_Updater.check_update", "ramrod/stix/stix_1_0.py:STIX_1_0_Updater.check_update", "ramrod/stix/stix_1_0_1.py:STIX_1_0_1_Updater.check_update", "ramrod/base.py:DisallowedFields.find", "ramrod/base.py:BaseUpdater._get_duplicates"]}
{"id": "C09", "title": "Documents of the wrong version are refused", "statement": "With version checks on and force off, a single-step update raises UnknownVersionError/InvalidVersionError if any package root (STIX_Package / Observables) in the document carries no version / a version different from the step's source version.", "quantifier": "every document, including ones with several nested package roots, every step", "why_tests_cant": "Documents can nest packages to any depth; the check must look at all of them.", "anchors": ["ramrod/stix/base.py:BaseSTIXUpdater._check_version", "ramrod/cybox/base.py:BaseCyboxUpdater._check_version"]}
{"id": "C10", "title": "Version checks can be switched off", "statement": "With options.check_versions=False, no step raises UnknownVersionError or InvalidVersionError for any document.", "quantifier": "every document and every step, both values of force", "why_tests_cant": "Absence of a behaviour on all documents.", "anchors": ["ramrod/options.py:UpdateOptions", "ramrod/*/*:check_update"]}
{"id": "C11", "title": "Forcing suppresses the refusable errors", "statement": "Once the version range has been accepted, update(..., force=True) never raises UpdateError, UnknownVersionError or InvalidVersionError.", "quantifier": "every document, every accepted range, all options", "why_tests_cant": "Absence of an exception on all documents and at every step of the chain.", "anchors": ["ramrod/base.py:BaseUpdater.update", "ramrod/base.py:BaseUpdater._force_update", "ramrod/base.py:BaseUpdater._clean"]}
{"id": "C12", "title": "Forced updates are total", "statement": "Once the version range has been accepted, update(..., force=True) returns a result for every document.", "quantifier": "every document and accepted range", "why_tests_cant": "Totality over all inputs; needs analysis of every partial operation.", "anchors": ["ramrod/base.py:BaseUpdater._force_update", "ramrod/stix/stix_1_2.py:STIX_1_2_Updater"]}
{"id": "C13", "title": "Cleaning leaves no untranslatable content", "statement": "After a step's clean() the step's own check finds no untranslatable node, i.e. cleaning is complete in one pass.", "quantifier": "every document, every step that defines untranslatable content", "why_tests_cant": "Removing a node can change whether its parent is untranslatable; needs reasoning over all trees.", "anchors": ["ramrod/base.py:BaseUpdater._clean", "ramrod/stix/stix_1_0.py:DisallowedMalware", "ramrod/stix/stix_1_0_1.py:DisallowedMalware", "ramrod/cybox/cybox_2_0_1.py:Cybox_2_0_1_Updater._clean_disallowed"]}
{"id": "C14", "title": "Cleaning removes nothing but untranslatable subtrees", "statement": "clean() keeps every node that is not inside an untranslatable node: same order, same tags, attributes (except remapped ids), and text. The removed collection contains one copy per untranslatable node, in discovery order.", "quantifier": "every document and every step", "why_tests_cant": "Frame property over all documents.", "anchors": ["ramrod/base.py:BaseUpdater._clean", "ramrod/utils.py:remove_xml_element", "ramrod/stix/stix_1_0.py:STIX_1_0_Updater._clean_disallowed"]}
{"id": "C15", "title": "Forced id remapping makes ids unique", "statement": "If the id generator returns fresh ids, after cleaning no two descendants in known namespaces share an id.", "quantifier": "every document, any number of duplicate groups, any fresh-id supply", "why_tests_cant": "Depends on every combination of groups and on freshness of an external source.", "anchors": ["ramrod/cybox/cybox_2_0_1.py:Cybox_2_0_1_Updater._clean_duplicates", "ramrod/stix/stix_1_0_1.py:STIX_1_0_1_Updater._clean_duplicates", "ramrod/utils.py:new_id", "ramrod/base.py:BaseUpdater._get_duplicates"]}
{"id": "C16", "title": "Id remapping touches only the duplicated ids", "statement": "Cleaning changes the id of exactly those descendants (known namespaces) that shared their id with another one; all other attributes, ids and idrefs stay as they were; the remapped table has exactly the formerly duplicated ids as keys and lists, for each, all the new ids.", "quantifier": "every document", "why_tests_cant": "Frame property over all documents.", "anchors": ["ramrod/cybox/cybox_2_0_1.py:Cybox_2_0_1_Updater._clean_duplicates", "ramrod/stix/stix_1_0_1.py:STIX_1_0_1_Updater._clean_duplicates"]}
{"id": "C17", "title": "schemaLocation rewriting is exact", "statement": "Each step rewrites the root's xsi:schemaLocation pairwise and in order: pairs of a disallowed namespace vanish, a renamed namespace gets its new name, a namespace in the step's table gets the table's location, every other pair is kept, and no xsi:schemaLocation is invented when there was none.", "quantifier": "every root attribute value (any whitespace, any number of tokens), every step", "why_tests_cant": "The attribute is unbounded free text.", "anchors": ["ramrod/base.py:BaseUpdater._update_schemalocs", "ramrod/base.py:BaseUpdater._clean_schemalocs", "ramrod/base.py:BaseUpdater._remap_schemalocs", "ramrod/utils.py:get_schemaloc_pairs"]}
{"id": "C18", "title": "schemaLocation rewriting is stable", "statement": "Printing the pairs of a schemaLocation and reading them back gives the same pairs (namespaces and locations without white space), so rewriting twice with the same table equals rewriting once.", "quantifier": "every list of pairs / every attribute value", "why_tests_cant": "Round trip over unbounded text.", "anchors": ["ramrod/base.py:BaseUpdater._create_schemaloc_str", "ramrod/utils.py:get_schemaloc_pairs"]}
{"id": "C19", "title": "Vocabulary update changes exactly the outdated vocabulary values", "statement": "For each vocabulary of a step: every descendant whose xsi:type resolves to that vocabulary namespace and an outdated type name gets the new type name with the same prefix, has its text replaced iff the text is a corrected term, and gets vocab_name/vocab_reference rewritten iff they were present; no other node changes in any way.", "quantifier": "every document, every vocabulary of every step", "why_tests_cant": "All documents, all prefixes, all terms.", "anchors": ["ramrod/base.py:Vocab.find", "ramrod/base.py:Vocab.update", "ramrod/base.py:BaseUpdater._update_vocabs"]}
{"id": "C20", "title": "No outdated vocabulary survives an update", "statement": "After a successful update with update_vocabularies=True no descendant carries an outdated vocabulary type of the applied step, and none of the misspelt terms survives in such a node; applying the vocabulary update again changes nothing.", "quantifier": "every document, every step", "why_tests_cant": "All documents; needs the interplay of several vocabulary classes applied one after the other.", "anchors": ["ramrod/base.py:BaseUpdater._update_vocabs", "ramrod/stix/stix_1_0_1.py:MotivationVocab"]}
{"id": "C21", "title": "Options off means untouched", "statement": "With update_vocabularies=False no xsi:type, vocab_name or vocab_reference attribute and no vocabulary text is changed, and with remove_optionals=False no element is removed by an unforced update step (only replaced by its translation).", "quantifier": "every document, every step", "why_tests_cant": "Frame property over all documents.", "anchors": ["ramrod/*/*:_update", "ramrod/options.py:UpdateOptions"]}
{"id": "C22", "title": "Only empty optional elements are removed", "statement": "Every element removed by the optional-element pass contains neither attributes nor non-blank text in its whole subtree, is named in the step's list, and every such listed empty element is gone afterwards; nothing else is removed and no text of the document is lost.", "quantifier": "every document, steps 1.0.1, 1.1 (STIX) and 2.0.1 (CybOX)", "why_tests_cant": "Content-preservation over all trees.", "anchors": ["ramrod/base.py:OptionalElements", "ramrod/stix/stix_1_0_1.py:STIX_1_0_1_Updater._update_optionals", "ramrod/cybox/cybox_2_0_1.py:Cybox_2_0_1_Updater._update_optionals", "ramrod/stix/stix_1_1.py:STIX_1_1_Updater._update_optionals"]}
{"id": "C23", "title": "All versioned constructs carry the new version", "statement": "After a successful STIX step every STIX_Package and every Indicator, Incident, TTP, Course_Of_Action, Threat_Actor, Campaign and Exploit_Target (in its own, the stix or the stixCommon namespace) that has a version attribute has the version prescribed for the target release (Indicator has its own number).", "quantifier": "every document, every STIX step, all options", "why_tests_cant": "Nodes at any depth; later passes create and copy nodes.", "anchors": ["ramrod/stix/stix_1_0.py:STIX_1_0_Updater._update_versions", "ramrod/stix/stix_1_0_1.py:STIX_1_0_1_Updater._update_versions", "ramrod/stix/stix_1_1.py:STIX_1_1_Updater._update_versions", "ramrod/stix/stix_1_1_1.py:STIX_1_1_1_Updater._update_versions", "ramrod/stix/stix_1_2.py:STIX_1_2_Updater._update", "ramrod/stix/base.py:BaseSTIXUpdater.XPATH_VERSIONED_NODES"]}
{"id": "C24", "title": "CybOX version attributes read back", "statement": "After a successful CybOX step every cybox:Observables element's version attributes (major, minor, update) read back as the target version, whatever they were before; composing and decomposing the three attributes is a round trip.", "quantifier": "every document, every CybOX step", "why_tests_cant": "All attribute combinations (missing, empty, extra).", "anchors": ["ramrod/cybox/cybox_2_0.py:Cybox_2_0_Updater._update_versions", "ramrod/cybox/cybox_2_0_1.py:Cybox_2_0_1_Updater._update_versions", "ramrod/cybox/base.py:BaseCyboxUpdater.get_version"]}
{"id": "C25", "title": "STIX 1.2 to 1.2.1 renames every namespace and nothing else", "statement": "After the 1.2 to 1.2.1 step no element is in one of the 26 renamed namespaces; every element keeps its local name, attributes, element order and text; namespace declarations are renamed accordingly.", "quantifier": "every document", "why_tests_cant": "Every tree; mixed content and nested declarations.", "anchors": ["ramrod/stix/stix_1_2.py:STIX_1_2_Updater", "ramrod/base.py:BaseUpdater._update_namespaces", "ramrod/base.py:BaseUpdater._update_nsmap", "ramrod/base.py:BaseUpdater._remap_namespaces"]}
{"id": "C26", "title": "Renamed namespaces are renamed in xsi:type as well", "statement": "After a step that renames a namespace, an xsi:type attribute whose prefix was bound to the old namespace resolves to the new one.", "quantifier": "every document, steps CybOX 2.0.1 and STIX 1.2", "why_tests_cant": "Depends on where each prefix is declared.", "anchors": ["ramrod/base.py:BaseUpdater._update_nsmap", "ramrod/cybox/cybox_2_0_1.py:Cybox_2_0_1_Updater.UPDATE_NS_MAP"]}
{"id": "C27", "title": "CybOX 2.0 list values keep their items", "statement": "The delimiter change of the 2.0 to 2.0.1 step preserves the item list: splitting the new text at ##comma## gives the items of the old text split at ',' with &comma; decoded to ','.", "quantifier": "every text of every descendant of an object's Properties, at any nesting depth", "why_tests_cant": "Unbounded text and nesting.", "anchors": ["ramrod/cybox/cybox_2_0.py:Cybox_2_0_Updater._update_lists"]}
{"id": "C28", "title": "HTTP header fields keep value and attributes when retyped", "statement": "The 2.0.1 to 2.1 step turns DNT/Vary headers from URI objects into plain strings and Refresh to string: the value text is the former URI value, the attributes of the value node are kept, and datatype of Refresh becomes string.", "quantifier": "every document", "why_tests_cant": "All documents, including ones without a value child.", "anchors": ["ramrod/cybox/cybox_2_0_1.py:TransHTTPSessionDNT", "ramrod/cybox/cybox_2_0_1.py:TransHTTPSessionVary", "ramrod/cybox/cybox_2_0_1.py:TransHTTPSessionRefresh", "ramrod/base.py:TranslatableField"]}
{"id": "C29", "title": "Misspelt CybOX field names are corrected everywhere and nothing else changes", "statement": "The 2.0.1 to 2.1 step renames X_Requested_For, the ARP address size, Encapsulating Security Payload and Authentication Data fields wherever they occur, keeps their content, and changes no other node.", "quantifier": "every document", "why_tests_cant": "All positions and nestings.", "anchors": ["ramrod/base.py:RenamedField", "ramrod/cybox/cybox_2_0_1.py:TransHTTPSessionXRequestedFor", "ramrod/cybox/cybox_2_0_1.py:TransNetPacketProtoAddrSize", "ramrod/cybox/cybox_2_0_1.py:TransNetPacketEncapsulatingSecurityPayload", "ramrod/cybox/cybox_2_0_1.py:TransNetPacketAuthenticationData"]}
{"id": "C30", "title": "Mailslot handles are flattened without loss", "statement": "A WinMailslotObj:Handle holding a single WinHandleObj:Handle becomes a single WinMailslotObj:Handle with the attributes, text and children of the inner handle; no two-level handle remains.", "quantifier": "every document that passes the step's check", "why_tests_cant": "All trees.", "anchors": ["ramrod/cybox/cybox_2_0_1.py:TransWinMailslotHandle", "ramrod/cybox/cybox_2_0_1.py:DisallowedWindowsMailslotHandle"]}
{"id": "C31", "title": "Exploit targets and related campaigns are wrapped without loss", "statement": "Each stixCommon:Exploit_Target directly in ttp:Exploit_Targets (1.0.1 step) and each indicator:Related_Campaign directly in indicator:Related_Campaigns (1.1 step) is put in the new wrapper element, keeping attributes, text and children; no unwrapped one remains.", "quantifier": "every document, any nesting", "why_tests_cant": "All trees, including recursive nesting of TTPs/indicators.", "anchors": ["ramrod/stix/stix_1_0_1.py:TransTTPExploitTargets", "ramrod/stix/stix_1_1.py:TransIndicatorRelatedCampaign", "ramrod/base.py:TranslatableField.translate"]}
{"id": "C32", "title": "Contributors are translated without loss", "statement": "The 1.0.1 step turns each stixCommon:Contributors child into a contributing source holding the same identity, in the same order, losing nothing.", "quantifier": "every document", "why_tests_cant": "All trees.", "anchors": ["ramrod/stix/stix_1_0_1.py:TransCommonContributors"]}
{"id": "C33", "title": "Source strings are translated without loss", "statement": "The 1.1 step turns every plain-text stixCommon:Source / indicator:Source into a structured source holding an identity whose name is exactly the old text.", "quantifier": "every document, every text", "why_tests_cant": "Unbounded text, including characters that need escaping.", "anchors": ["ramrod/stix/stix_1_1.py:TransCommonSource", "ramrod/stix/stix_1_1.py:TransSightingsSource"]}
{"id": "C34", "title": "Version comparison is a consistent total order", "statement": "On well-formed version strings, equality of versions is an equivalence relation ('1.1' equals '1.1.0'), ordering is total and transitive and consistent with equality, and it orders the supported versions as released; a malformed string raises ValueError on every comparison.", "quantifier": "all strings", "why_tests_cant": "Unbounded strings.", "anchors": ["ramrod/utils.py:is_version_equal", "ramrod/utils.py:validate_versions"]}
{"id": "C35", "title": "Unsupported extension namespaces disappear from the document", "statement": "After a forced STIX 1.0 / 1.0.1 step neither the schemaLocation nor any namespace declaration mentions the MAEC and CAPEC extension namespaces removed by that step.", "quantifier": "every document", "why_tests_cant": "All documents.", "anchors": ["ramrod/stix/stix_1_0.py:STIX_1_0_Updater.DISALLOWED_NAMESPACES", "ramrod/stix/stix_1_0_1.py:STIX_1_0_1_Updater.DISALLOWED_NAMESPACES", "ramrod/base.py:BaseUpdater._remap_namespaces", "ramrod/base.py:BaseUpdater._clean_schemalocs"]}
{"id": "C36", "title": "update_ns.py renames back and forth without loss", "statement": "Converting a document's namespaces forward and then backward with the namespace-update script gives the original document back, provided it did not already use a target namespace.", "quantifier": "every document, both directions", "why_tests_cant": "All documents and declarations.", "anchors": ["ramrod/scripts/update_ns.py:update_namespaces", "ramrod/scripts/update_ns.py:update_schemalocations", "ramrod/scripts/update_ns.py:update_from_lists"]}
{"id": "C37", "title": "The script and the library agree on the 1.2 to 1.2.1 renaming", "statement": "For every namespace, update_ns.py maps it to the same namespace as the library's STIX 1.2 updater does.", "quantifier": "every namespace", "why_tests_cant": "A missing or misaligned table entry shows only on documents using that namespace.", "anchors": ["ramrod/scripts/update_ns.py:STIX_NS_1_2", "ramrod/scripts/update_ns.py:STIX_NS_1_2_1", "ramrod/stix/stix_1_2.py:STIX_1_2_Updater.UPDATE_NS_MAP"]}
{"id": "C38", "title": "The command line tool writes its output only on success", "statement": "ramrod_update writes the output document iff the update succeeded; on UpdateError, UnknownVersionError or InvalidVersionError it exits with status 1 and writes no file; version checks are disabled iff --from is given.", "quantifier": "every argument vector and every update outcome", "why_tests_cant": "All outcomes.", "anchors": ["ramrod/scripts/ramrod_update.py:main", "ramrod/scripts/ramrod_update.py:_get_options", "ramrod/scripts/ramrod_update.py:_validate_args"]}
{"id": "C39", "title": "Force changes nothing on acceptable documents", "statement": "If an unforced update succeeds, the forced update of the same document gives the identical result.", "quantifier": "every document, every chain, all options", "why_tests_cant": "Equality on all documents.", "anchors": ["ramrod/base.py:BaseUpdater.update", "ramrod/stix/__init__.py:update", "ramrod/cybox/__init__.py:update"]}
{"id": "C40", "title": "Passing the check means the update is not refused", "statement": "If check_update(doc) returns normally for a one-step updater, update(doc) with the same options raises neither UpdateError, UnknownVersionError nor InvalidVersionError.", "quantifier": "every document, every step, all options", "why_tests_cant": "All documents.", "anchors": ["ramrod/base.py:BaseUpdater.update", "ramrod/*/*:check_update"]}
{"id": "C41", "title": "Cleaned documents pass the check", "statement": "For the CybOX steps, check_update(clean(doc)) with version checks off never raises UpdateError.", "quantifier": "every document, every fresh-id supply", "why_tests_cant": "Combination of C13 and C15 on all documents.", "anchors": ["ramrod/cybox/cybox_2_0_1.py:Cybox_2_0_1_Updater.check_update", "ramrod/base.py:BaseUpdater.clean"]}
{"id": "C42", "title": "Default versions are the document's own version and the latest release", "statement": "Omitting from_ is the same as passing the version read from the root, omitting to_ is the same as passing the latest supported version; after a successful update to t, updating again without from_ starts from t.", "quantifier": "every document and argument combination", "why_tests_cant": "All documents.", "anchors": ["ramrod/__init__.py:update", "ramrod/stix/__init__.py:update", "ramrod/cybox/__init__.py:update"]}
{"id": "C43", "title": "Attribute-only steps preserve the document skeleton", "statement": "The unforced STIX 1.1.1 to 1.2 step, the STIX 1.0 to 1.0.1 step and the CybOX 2.0 to 2.0.1 step preserve the tree: the same elements with the same tags in the same order, the same comments, and every attribute other than version, schemaLocation, xsi:type, vocab_name, vocab_reference, delimiter and the CybOX version attributes is unchanged.", "quantifier": "every document, all options", "why_tests_cant": "Frame property over all documents.", "anchors": ["ramrod/stix/stix_1_1_1.py:STIX_1_1_1_Updater._update", "ramrod/stix/stix_1_0.py:STIX_1_0_Updater._update", "ramrod/cybox/cybox_2_0.py:Cybox_2_0_Updater._update"]}
{"id": "C44", "title": "Removed nodes are reported without repetition", "statement": "Each untranslatable node is reported once in the removed collection / in UpdateError.disallowed.", "quantifier": "every document, every step", "why_tests_cant": "Several finders may hit the same node; depends on the tree.", "anchors": ["ramrod/stix/stix_1_0_1.py:DisallowedDateTime", "ramrod/base.py:BaseUpdater._clean", "ramrod/stix/stix_1_0_1.py:STIX_1_0_1_Updater._get_disallowed"]}
{"id": "C45", "title": "Version checks along a chain", "statement": "In an update of several steps only the first step can refuse the document for its version: every step leaves version attributes, on the root and on embedded CybOX content, that the version check of the next step accepts; so a document whose versions pass the first check is updated as if version checks were off.", "quantifier": "every document, every pair of source and target release, every option set, forced or not", "why_tests_cant": "The checks of one step read what another step wrote, in places that depend on the document.", "anchors": ["ramrod/stix/__init__.py:update", "ramrod/cybox/__init__.py:update", "ramrod/stix/stix_1_0.py:STIX_1_0_Updater._init_cybox_updater", "ramrod/stix/stix_1_0_1.py:STIX_1_0_1_Updater._init_cybox_updater", "ramrod/stix/base.py:BaseSTIXUpdater._check_version"]}
{"id": "C46", "title": "Ids and references survive", "statement": "An unforced update keeps the values of every attribute that the steps do not manage (id, idref and all others except versions, schema locations, xsi:type, vocab_name, vocab_reference and datatype): the same values in the same document order. No step, forced or not, makes up an attribute value, except new ids from the generator. So every reference that had a target before has one afterwards.", "quantifier": "every document, every step and every chain of steps, every option set", "why_tests_cant": "Translated fields move and rebuild elements at places that depend on the document; a lost attribute shows only where it was present.", "anchors": ["ramrod/cybox/cybox_2_0_1.py:Cybox_2_0_1_Updater._translate_fields", "ramrod/stix/stix_1_0_1.py:TransCommonContributors", "ramrod/stix/stix_1_1.py:TransSightingsSource", "ramrod/base.py:BaseUpdater._clean_duplicates", "ramrod/base.py:TranslatableField"]}
{"id": "C47", "title": "Text survives", "statement": "An unforced update of a document without mixed content keeps its text: the characters that are not white space are the same ones in the same order afterwards. Only corrected vocabulary terms and list separators inside object properties may differ.", "quantifier": "every document, every step and every chain of steps, every option set", "why_tests_cant": "Elements are rebuilt, moved and removed at places that depend on the document; lost text shows only where it was present.", "anchors": ["ramrod/base.py:TranslatableField", "ramrod/utils.py:copy_xml_element", "ramrod/utils.py:replace_xml_element", "ramrod/base.py:BaseUpdater._update_namespaces", "ramrod/base.py:OptionalElements", "ramrod/cybox/cybox_2_0_1.py:Cybox_2_0_1_Updater"]}
{"id": "C48", "title": "Schema locations of the target release", "statement": "After an update every namespace in xsi:schemaLocation of the root that the target release knows has the location this release publishes, whatever the source release and the old location were. The location names the major version of its namespace and a version of the kind of the release. A release knows all namespaces that the next step declares.", "quantifier": "every document, every pair of source and target release, every option set, forced or not", "why_tests_cant": "About two hundred and seventy table entries, typed by hand, applied one table after the other; tests look at a few of them.", "anchors": ["ramrod/base.py:BaseUpdater._update_schemalocs", "ramrod/base.py:BaseUpdater._remap_schemalocs", "ramrod/stix/stix_1_0_1.py:UPDATE_SCHEMALOC_MAP", "ramrod/stix/stix_1_2.py:UPDATE_NS_MAP", "ramrod/cybox/cybox_2_0_1.py:UPDATE_SCHEMALOC_MAP"]}
{"id": "C49", "title": "Blind to prefixes, ids, comments and other attributes", "statement": "Rename the namespace prefixes of a document (declarations and xsi:type values together; the two prefixes the library writes itself stay), rename its ids one-to-one, change the values of attributes no step manages and the contents of comments: the outcome of update is the outcome for the original, renamed in the same way. This covers the updated document, the refusal with its listed nodes and ids, and the forced result with removed nodes and the table of new ids.", "quantifier": "every document, every one-to-one renaming, every pair of versions, every option set whose id generator follows the renaming, forced or not", "why_tests_cant": "A statement about pairs of runs on unboundedly many pairs of documents; test documents all use the customary prefixes.", "anchors": ["ramrod/utils.py:get_type_info", "ramrod/utils.py:get_ext_namespace", "ramrod/base.py:BaseUpdater._remap_namespaces", "ramrod/base.py:BaseUpdater._get_duplicates", "ramrod/base.py:Vocab.update", "ramrod/__init__.py:update"]}
{"id": "C50", "title": "Standard output carries the document alone", "statement": "When the command line tool is run without an output file, standard output holds the updated document and nothing else on success, and nothing on failure, so that it can be piped into a parser.", "quantifier": "every input file, argument list, line numbering and message text", "why_tests_cant": "The test suite never runs the tool; the claim concerns every mixture of document and report.", "anchors": ["ramrod/scripts/ramrod_update.py:_write_xml", "ramrod/scripts/ramrod_update.py:_write_removed", "ramrod/scripts/ramrod_update.py:_write_remapped_ids", "ramrod/scripts/ramrod_update.py:_print_update_error", "ramrod/scripts/ramrod_update.py:main"]}
{"id": "C51", "title": "The report names everything that was lost or refused", "statement": "After a forced run the tool prints one line for each removed element with its full name and one for each id that was shared with its new ids; after a refusal it names each untranslatable element, each shared id, and, for a wrong version, the element that carries it. It prints nothing besides these lines, the message and the headings.", "quantifier": "every input file, argument list, line numbering and message text", "why_tests_cant": "The test suite never runs the tool; lists can have any length.", "anchors": ["ramrod/scripts/ramrod_update.py:_write_removed", "ramrod/scripts/ramrod_update.py:_write_remapped_ids", "ramrod/scripts/ramrod_update.py:_print_update_error", "ramrod/scripts/ramrod_update.py:_print_invalid_version_error"]}
{"id": "C52", "title": "Each child of the root is updated on its own", "statement": "When an unforced update of a document succeeds, every child of the root can be updated alone below the same root, and the children of the result are, in order, what the separate updates give; the root gets the same name, namespace declarations and attributes. Conversely, if the children can be updated separately and no two of them write the same id, the document can be updated.", "quantifier": "every STIX package and every CybOX document, every cut of its children, every pair of versions, every option; without force", "why_tests_cant": "The claim compares runs on unboundedly many documents; a pass that stops at its first match or carries a value from one sibling to the next passes on documents with one match.", "anchors": ["ramrod/__init__.py:update", "ramrod/base.py:BaseUpdater._update", "ramrod/base.py:BaseUpdater.check_update", "ramrod/base.py:BaseUpdater._get_duplicates", "ramrod/stix/__init__.py:update", "ramrod/cybox/__init__.py:update"]}
{"id": "C53", "title": "Forcing is cleaning and then updating", "statement": "A forced one-step update has the same outcome as cleaning the document and then updating the cleaned document without force and without version checks. Cleaning a document that the step accepts changes nothing and reports nothing; so does cleaning a second time.", "quantifier": "every document, every step, every generator of fresh ids", "why_tests_cant": "The tests compare one forced result per step with a stored file; they never clean twice or compare the two routes.", "anchors": ["ramrod/base.py:BaseUpdater._clean", "ramrod/base.py:BaseUpdater._force_update", "ramrod/base.py:BaseUpdater.update", "ramrod/base.py:BaseUpdater.clean"]}
{"id": "C54", "title": "Only the documented exceptions", "statement": "An update without force returns a result or raises UpdateError, InvalidVersionError or UnknownVersionError, the exceptions that update() documents, and nothing else.", "quantifier": "every document, every pair of versions asked for, every set of options", "why_tests_cant": "The tests trigger a handful of refusals; the absence of any other exception is a statement about all documents.", "anchors": ["ramrod/__init__.py:update", "ramrod/errors.py", "ramrod/base.py:BaseUpdater.update"]}
{"id": "C55", "title": "No outdated vocabulary name survives a whole update", "statement": "After an update with vocabularies on, over any number of steps, no element below the root carries a vocabulary type that one of the applied steps declares outdated: neither one of the STIX vocabularies nor one of the CybOX vocabularies used in embedded content, and also not under the namespace the STIX vocabulary has from 1.2.1 on.", "quantifier": "every document, every pair of versions, forced or not", "why_tests_cant": "The tests compare one-step results with stored files; that later steps never bring an outdated name back, by moving or copying content or by rebinding a prefix, is a statement about all documents and all chains.", "anchors": ["ramrod/base.py:BaseUpdater._update_vocabs", "ramrod/stix/__init__.py:update", "ramrod/cybox/__init__.py:update", "ramrod/stix/stix_1_0_1.py:STIX_1_0_1_Updater._update", "ramrod/stix/stix_1_2.py:STIX_1_2_Updater._update"]}
{"id": "C56", "title": "Foreign content passes through whole updates unchanged", "statement": "Content in namespaces outside the STIX, CybOX and data marking languages (extensions, local markup) that stands below the root and has some text or attribute is found in the result of an unforced update, over any number of steps, exactly as it was: names, namespace declarations, attributes, texts, comments and order; and different foreign parts stay in document order. In a forced update it is there too, or in an element that is reported as removed.", "quantifier": "every document, every pair of versions, forced or not", "why_tests_cant": "The sample files contain next to no foreign markup, and the tests compare results with stored files; that none of the passes (renaming of namespaces, vocabularies, translated fields, list delimiters, removal of optional elements) touches foreign markup wherever it stands is a statement about all documents.", "anchors": ["ramrod/base.py:BaseUpdater._update_namespaces", "ramrod/base.py:TranslatableField._translate_fields", "ramrod/cybox/cybox_2_0_1.py:Cybox_2_0_1_Updater._update_optionals", "ramrod/cybox/cybox_2_0.py:Cybox_2_0_Updater._update_lists", "ramrod/cybox/cybox_2_0_1.py:Cybox_2_0_1_Updater._translate_fields", "ramrod/stix/stix_1_0_1.py:TransCommonContributors"]}
{"id": "C57", "title": "Nothing is made up", "statement": "Every element in the result of an update, forced or not and over any number of steps, has a name that occurs in the source (up to the corrected spellings and the renamed namespaces) or is one of the six names of wrappers the formats introduced; a text that occurs in the source (up to list delimiters and corrected vocabulary terms), white space, or `None` for a missing source name; a tail that occurs in the source or is white space; and no attribute besides those the steps manage that was not in the source, except ids from the id generator in a forced update.", "quantifier": "every document, every pair of versions, forced and not", "why_tests_cant": "A test sees the content that some sample update produces; that no document makes the passes invent a name, a text or an attribute, including by interpreting text as markup, is a statement about all documents and all texts.", "anchors": ["ramrod/stix/stix_1_1.py:TransCommonSource._translate_fields", "ramrod/stix/stix_1_1.py:TransSightingsSource._translate_fields", "ramrod/stix/stix_1_0_1.py:TransCommonContributors", "ramrod/base.py:TranslatableField._translate_fields", "ramrod/base.py:BaseUpdater._update_nsmap", "ramrod/cybox/cybox_2_0.py:Cybox_2_0_Updater._update_lists"]}
{"id": "C58", "title": "The manual lists every change", "statement": "If a document contains nothing that the pages of the manual (docs/updates) on the applied steps list as changed - fields, renamed elements and namespaces, vocabulary types, empty optional elements, lists - then the update changes nothing in it except schema locations and version numbers: same elements, names, texts, tails, comments, namespace declarations and other attributes in the same order.", "quantifier": "every accepted document, every step with a page and every chain of such steps, all options", "why_tests_cant": "That a step has no other effect is a statement about all documents without the listed content; tests compare listed content before and after and never show that there is no unlisted effect.", "anchors": ["docs/updates/stix/stix_1.0.1_to_1.1.rst", "docs/updates/stix/stix_1.1_to_1.1.1.rst", "docs/updates/cybox/cybox_2.0.1_to_2.1.rst", "docs/updates/cybox/cybox_2.0_to_2.0.1.rst", "ramrod/cybox/cybox_2_0_1.py:Cybox_2_0_1_Updater.TRANSLATABLE_FIELDS", "ramrod/cybox/cybox_2_0_1.py:Cybox_2_0_1_Updater.OPTIONAL_ELEMENTS", "ramrod/stix/stix_1_0_1.py:MotivationVocab"]}
{"id": "C59", "title": "Repeating an update step changes nothing", "statement": "Running an update step once more on its own result, with the version check off (as the command line option --from does), succeeds and returns the same document.", "quantifier": "every document the step accepts, each of the seven steps, all options", "why_tests_cant": "Idempotence quantifies over all documents and over the interplay of all passes of a step; the existing tests run each step once on one document.", "anchors": ["ramrod/base.py:BaseUpdater.update", "ramrod/cybox/cybox_2_0.py:Cybox_2_0_Updater._update_lists", "ramrod/stix/stix_1_1.py:TransCommonSource", "ramrod/stix/stix_1_1.py:TransIndicatorRelatedCampaign", "ramrod/cybox/cybox_2_0_1.py:TransHTTPSessionDNT", "ramrod/scripts/ramrod_update.py:main"]}
{"id": "C60", "title": "The command line says what the tool does", "statement": "The tool accepts exactly the command lines that spell out a list of settings with an input file among them: long options, or beginnings of them that fit one option only, with the value after = or as the next argument, -f, -ff and so on. What it does depends only on the settings: the last value given for each option, and which switches occur. The order of different options does not matter. Any other command line ends the tool with status 2 before a file is looked at, or with status 0 if help is asked for.", "quantifier": "every list of argument strings, every way to spell every list of settings", "why_tests_cant": "There are infinitely many command lines and ways to spell the same settings; the tests call the library functions and never run the parser.", "anchors": ["ramrod/scripts/ramrod_update.py:_get_arg_parser", "ramrod/scripts/ramrod_update.py:main"]}
{"id": "C61", "title": "Nothing is lost without a report", "statement": "What a forced update takes out of a document is reported: every element name, text and attribute value of the input is found at least as often in the output document and the removed elements together, and every id is in the output, in a removed element, or a key of the table of replaced ids.", "quantifier": "every document, each of the seven steps and all chains of steps, all options, forced or not", "why_tests_cant": "A loss is only visible when input, output and report are compared as wholes, for every nesting and order of untranslatable elements; the tests look at single elements of one document.", "anchors": ["ramrod/base.py:BaseUpdater._clean", "ramrod/base.py:BaseUpdater.update", "ramrod/cybox/cybox_2_0_1.py:Cybox_2_0_1_Updater._clean_disallowed", "ramrod/stix/__init__.py:update", "ramrod/cybox/__init__.py:update"]}
{"id": "C62", "title": "The vocabulary option changes vocabulary values only", "statement": "Whatever an update does with update_vocabularies=True it also does with update_vocabularies=False: if the first succeeds, so does the second, with the same removed elements, the same new ids and the same count of generated ids, and the two result documents are equal except for the version in a vocabulary type, the name and reference of the vocabulary, and the corrected terms.", "quantifier": "every document, each of the seven steps and all chains of steps of stix.update, cybox.update and ramrod.update, all other options, forced or not", "why_tests_cant": "A chain runs up to five steps, and a term or type left alone by one step is read by the checks, translations and removals of all later ones; the tests never run the same document with and without the option.", "anchors": ["ramrod/base.py:BaseUpdater._update_vocabs", "ramrod/stix/stix_1_0_1.py:STIX_1_0_1_Updater._update", "ramrod/cybox/cybox_2_0_1.py:Cybox_2_0_1_Updater._update", "ramrod/stix/__init__.py:update", "ramrod/cybox/__init__.py:update"]}
{"id": "C63", "title": "The namespace script changes names only", "statement": "Whatever namespace lists the script is given, if it succeeds then the result has the shape of the source: each element keeps its local name, text, tail and bound prefixes, its namespace is replaced by the entry beside the last occurrence of that namespace in the source list (and kept when there is none), no attribute is made up, no attribute is lost and no value other than a schema location changes. A list file gives its lines in order, without surrounding white space, blank lines and comment lines. A whole run additionally sets the version of the root for the two known releases only.", "quantifier": "every document and all pairs of lists (repeated, missing or chained entries, lists of different length), all list files", "why_tests_cant": "The script has no tests, and user-supplied lists can contain cycles, repetitions and unequal lengths that no fixed list shows.", "anchors": ["ramrod/scripts/update_ns.py:update_from_lists", "ramrod/scripts/update_ns.py:update_namespaces", "ramrod/scripts/update_ns.py:update_schemalocations", "ramrod/scripts/update_ns.py:get_namespace_list", "ramrod/scripts/update_ns.py:main"]}
{"id": "C64", "title": "Types keep their meaning", "statement": "Every xsi:type in the result of a whole update stems from an xsi:type of the source with the same prefix; its name is the same or a later name of the same vocabulary; and if the prefix was bound there, it is bound in the result, to the same namespace or the one that replaced it. No type is left with an undeclared prefix and none changes its namespace.", "quantifier": "every document, all version ranges and options, forced or not", "why_tests_cant": "A prefix in an attribute value is invisible to the XML library, which drops declarations of elements that are replaced; whether a type is affected depends on where its prefix is declared, and the test documents declare everything on the root.", "anchors": ["ramrod/base.py:BaseUpdater._update_nsmap", "ramrod/base.py:BaseUpdater._remap_namespaces", "ramrod/base.py:TranslatableField._translate_attributes", "ramrod/cybox/cybox_2_0_1.py:TransHTTPSessionDNT", "ramrod/cybox/cybox_2_0_1.py:TransWinMailslotHandle", "ramrod/stix/__init__.py:update"]}
{"id": "C65", "title": "Nothing is doubled", "statement": "The values an attribute has in the result of a whole update, in document order, are some of the values it had in the document, in the same order; in particular a document whose ids are unique gives a result whose ids are unique, and a forced update of it replaces no id.", "quantifier": "every document, every attribute the update does not manage, all version ranges and options, forced or not", "why_tests_cant": "Content is copied, moved and wrapped by a dozen translations, each of which could leave the original in place or copy a part twice; the tests never compare the attributes of a result with those of its source.", "anchors": ["ramrod/base.py:TranslatableField.translate", "ramrod/base.py:BaseUpdater._translate_fields", "ramrod/utils.py:replace_xml_element", "ramrod/utils.py:copy_xml_element", "ramrod/stix/stix_1_0_1.py:TransTTPExploitTargets", "ramrod/stix/stix_1_1.py:TransCommonSource", "ramrod/base.py:BaseUpdater.clean"]}
{"id": "C66", "title": "Comments are neither invented nor changed", "statement": "The comments and processing instructions in the result of a whole update, each with the text after it, are some of those of the document, in the same order. An unforced update that does not remove optional elements loses none of them, if the document has none of the elements that are translated from a part of their content.", "quantifier": "every document, all version ranges and options, forced or not", "why_tests_cant": "The test documents have no comments inside translated elements, and the passes that copy, wrap and remove elements do not mention comments at all.", "anchors": ["ramrod/base.py:TranslatableField.translate", "ramrod/base.py:BaseUpdater._translate_fields", "ramrod/base.py:BaseUpdater.clean", "ramrod/utils.py:replace_xml_element", "ramrod/utils.py:remove_xml_elements", "ramrod/utils.py:copy_xml_element", "ramrod/stix/stix_1_1.py:TransCommonSource"]}
{"id": "C67", "title": "The namespace script reads its command line exactly and prints one updated document", "statement": "The script update_ns.py accepts exactly the command lines that spell out settings with both -f/--from and -t/--to among them and name at most one file: long options or unambiguous beginnings of them with the value after = or as the next argument, letters with the value attached, after = or as the next argument, any number of p in front of a letter, the file anywhere, and -- only at the end beside the file. The last value of an option counts. It prints a document exactly if such a command line is given, the document and both lists can be read and the update with the two lists succeeds; the document printed is that update. Any other command line ends it with status 2, or with 0 if help is asked for.", "quantifier": "every list of argument strings, all files, both directions", "why_tests_cant": "The repository has no tests for this script; there are infinitely many ways to spell the same settings.", "anchors": ["ramrod/scripts/update_ns.py:parse_args", "ramrod/scripts/update_ns.py:main", "ramrod/scripts/update_ns.py:get_namespace_list"]}
{"id": "C68", "title": "The removal of optional elements only takes elements away", "statement": "Let a document be updated twice, with and without the option to remove optional elements, and let both updates succeed. The result with the option is the result without it minus whole elements below the root (with their content and the text after them): all other elements, their attributes, texts and namespace declarations, the comments and the order are the same. The removed nodes and remapped ids reported, and the number of ids asked for, are the same.", "quantifier": "every STIX or CybOX document, every chain of steps, forced or not, with or without vocabularies", "why_tests_cant": "Compares two whole runs on arbitrary documents; an element dropped early changes what all later passes see.", "anchors": ["ramrod/base.py:OptionalElements", "ramrod/options.py:UpdateOptions", "ramrod/stix/__init__.py:update", "ramrod/cybox/__init__.py:update", "ramrod/base.py:BaseUpdater._update_nsmap"]}
{"id": "C69", "title": "The function for new ids only changes the values of ids", "statement": "Update one document twice with the same settings but different functions for new ids. Either both updates stop with the same exception, or both succeed with the same number of calls of the function and results that agree in everything but the values of `id` attributes: the document, the removed nodes, the old ids in the table of new ids and the number of new ids for each. If no id is new the results are identical, and without force the function never matters.", "quantifier": "every document, range of versions, options, pair of functions (colliding ones included), forced or not, every XML parser and date validator", "why_tests_cant": "Relates two whole runs for arbitrary functions; a new id read by a later step (duplicate detection, a forced clean) would only show for functions that collide.", "anchors": ["ramrod/utils.py:new_id", "ramrod/options.py:UpdateOptions", "ramrod/cybox/cybox_2_0_1.py:Cybox_2_0_1_Updater._clean_duplicates", "ramrod/stix/stix_1_0_1.py:STIX_1_0_1_Updater._clean_duplicates", "ramrod/stix/__init__.py:update"]}
{"id": "C70", "title": "Comments and processing instructions beside the root survive", "statement": "Whatever stands beside the root element of a document (a license in a comment, a style sheet instruction) stands there again in the updated document, for the library and for the namespace script; and it has no influence on the rest of the outcome.", "quantifier": "every document with anything before and after its root, every range of versions and options, forced or not; every pair of namespace lists", "why_tests_cant": "The test documents have nothing to lose there or do not look at it; the claim is about all documents.", "anchors": ["ramrod/utils.py:get_etree_root", "ramrod/results.py:ResultDocument", "ramrod/base.py:BaseUpdater.update", "ramrod/scripts/update_ns.py:update_from_lists"]}
{"id": "C71", "title": "CybOX content in a STIX package is updated like a CybOX document", "statement": "When a STIX package from 1.0 or 1.0.1 is updated without force, the content of its stix:Observables becomes exactly what the same content becomes when it is updated as a CybOX document of its own between the CybOX releases that go with the two STIX releases, that update succeeds too, and the same CybOX version is written on both; the other children of the package are updated as if the observables were not there.", "quantifier": "every package and every content without STIX elements or STIX types inside it, every later STIX release, all options, unforced", "why_tests_cant": "The tests update STIX and CybOX documents separately and never compare the two; the claim is about all contents and all STIX releases, including the steps that should leave CybOX alone.", "anchors": ["ramrod/stix/base.py:BaseSTIXUpdater._init_cybox_updater", "ramrod/stix/stix_1_0.py:STIX_1_0_Updater._update", "ramrod/stix/stix_1_0_1.py:STIX_1_0_1_Updater._update", "ramrod/cybox/cybox_2_0.py:Cybox_2_0_Updater._update", "ramrod/cybox/cybox_2_0_1.py:Cybox_2_0_1_Updater._update"]}
{"id": "C72", "title": "The spelling of a version does not matter", "statement": "Two documents that differ only in how the root spells its version (1.0 and 1.00.0, or 2.0.1 and 02.00.1) are treated alike: an update of one succeeds exactly when the same update of the other does, with equal results. With version checks off this holds for any two values of the version attributes.", "quantifier": "every STIX package and CybOX document, every content, any two spellings of the root's version, every source and target, all options, forced or not", "why_tests_cant": "The tests use one spelling of each version; the claim compares whole runs on pairs of documents for all contents, spellings and options.", "anchors": ["ramrod/utils.py:is_version_equal", "ramrod/utils.py:validate_version", "ramrod/stix/base.py:BaseSTIXUpdater._check_version", "ramrod/cybox/base.py:BaseCyboxUpdater._check_version", "ramrod/stix/__init__.py:update", "ramrod/cybox/__init__.py:update"]}
{"id": "C73", "title": "Other attributes of the root do not matter", "statement": "Changing the values of attributes of the root element other than its version and xsi:schemaLocation (its id, its timestamp, its xsi:type, foreign ones) changes nothing about an update: it succeeds or fails as before, removes the same elements, remaps the same ids, and the resulting documents differ only in the values of these attributes on the root.", "quantifier": "every STIX package and CybOX document, every choice of such attributes and values, every source and target, all options, forced or not", "why_tests_cant": "The tests never vary the attributes of the root; the claim compares whole runs on pairs of documents, including a root whose id is one of the duplicates and a root whose xsi:type is ill-formed.", "anchors": ["ramrod/base.py:BaseUpdater.update", "ramrod/base.py:BaseUpdater._get_duplicates", "ramrod/utils.py:get_typed_nodes", "ramrod/stix/base.py:BaseSTIXUpdater._check_version", "ramrod/cybox/base.py:BaseCyboxUpdater._check_version"]}
{"id": "C74", "title": "No two elements of the result have the same id", "statement": "A successful update across the step that checks ids (STIX 1.0.1 to 1.1, CybOX 2.0.1 to 2.1) gives a document in which no two elements, the root included, have the same id; a forced update gives new ids where needed.", "quantifier": "every STIX package from 1.0 or 1.0.1 and every CybOX document, every content, every later target, all options, forced with any fresh-id supply or not forced", "why_tests_cant": "Combines the check, the renaming, the translations that drop and copy elements, and all later steps, over all documents and id supplies.", "anchors": ["ramrod/base.py:BaseUpdater._get_duplicates", "ramrod/stix/stix_1_0_1.py:STIX_1_0_1_Updater._get_duplicates", "ramrod/cybox/cybox_2_0_1.py:Cybox_2_0_1_Updater._clean_duplicates", "ramrod/base.py:BaseUpdater.update"]}
{"id": "C75", "title": "A forced update that reports nothing did not need force", "statement": "If a forced update succeeds and reports neither removed nodes nor remapped ids, then the same update without force gives the same result, or it is refused for a version alone (and only if versions are checked), never for its content. With version checks off, a successful forced update reports nothing exactly if the unforced update succeeds, with the same result.", "quantifier": "every document, every source and target, all options, any id supply", "why_tests_cant": "Relates two whole runs over any number of steps for every document; tests look at single refusals.", "anchors": ["ramrod/base.py:BaseUpdater.update", "ramrod/base.py:BaseUpdater._clean", "ramrod/stix/stix_1_0.py:STIX_1_0_Updater.check_update", "ramrod/stix/stix_1_0_1.py:STIX_1_0_1_Updater.check_update", "ramrod/cybox/cybox_2_0_1.py:Cybox_2_0_1_Updater.check_update", "ramrod/stix/__init__.py:update"]}
{"id": "C76", "title": "The report of new ids is the record of the calls of the id function", "statement": "After a successful update the report of remapped ids, read in its order, lists one pair of argument and result for every call of the id function: the function is called only with ids that are replaced, every result is reported, none twice. Every id has one entry with at least two new ids; the function is called exactly if the report is not empty.", "quantifier": "every document, every source and target, all options, forced or not, any id supply", "why_tests_cant": "Tests look at one document; a call whose result is dropped or reported under another id needs several shared ids and several steps.", "anchors": ["ramrod/base.py:BaseUpdater._clean", "ramrod/cybox/cybox_2_0_1.py:Cybox_2_0_1_Updater._clean_duplicates", "ramrod/stix/stix_1_0_1.py:STIX_1_0_1_Updater._clean_duplicates", "ramrod/stix/__init__.py:update"]}
{"id": "C77", "title": "The version check accepts or refuses, and changes nothing else", "statement": "If an update with version checks succeeds, forced or not, the same update without them gives the same document and the same report. Conversely, if the update without version checks succeeds, the one with them gives the same result or stops for a version: with a refusal if not forced, with ValueError for an unreadable version, or, forced, with NotImplementedError in the step from STIX 1.2.", "quantifier": "every document, every source and target, all options, forced or not, any id supply", "why_tests_cant": "Compares two whole runs for every document; a forced run with a wrong version cleans the document on one side only, which must come to the same.", "anchors": ["ramrod/base.py:BaseUpdater.update", "ramrod/base.py:BaseUpdater._force_update", "ramrod/stix/base.py:BaseSTIXUpdater._check_version", "ramrod/cybox/base.py:BaseCyboxUpdater._check_version", "ramrod/stix/stix_1_0_1.py:STIX_1_0_1_Updater.check_update", "ramrod/cybox/cybox_2_0_1.py:Cybox_2_0_1_Updater.check_update"]}
{"id": "C78", "title": "Telling the tool the version it would find changes nothing", "statement": "If ramrod_update succeeds without --from, it writes the same document to the same place and prints the same report when --from names the version the root of the document says. Conversely, a run that succeeds with that --from does the same without it, or writes nothing and stops for a version elsewhere in the document.", "quantifier": "every document, every target, all switches, forced or not, any id supply", "why_tests_cant": "Compares two whole runs of the tool; --from also switches the version checks off, so a difference needs a document whose parts disagree about their version.", "anchors": ["ramrod/scripts/ramrod_update.py:_get_options", "ramrod/scripts/ramrod_update.py:main", "ramrod/__init__.py:update", "ramrod/stix/__init__.py:update", "ramrod/cybox/__init__.py:update"]}
{"id": "C79", "title": "A new id that is reported is found in the result or in a removed element", "statement": "Every new id in the report of a successful update is the id of an element of the resulting document or of an element inside one of the reported removed elements.", "quantifier": "every document, every source and target, all options, forced or not, any id supply", "why_tests_cant": "Follows each new id through removal, translation and all later steps, over all documents.", "anchors": ["ramrod/base.py:BaseUpdater._clean", "ramrod/cybox/cybox_2_0_1.py:Cybox_2_0_1_Updater._clean_duplicates", "ramrod/stix/stix_1_0_1.py:STIX_1_0_1_Updater._clean_duplicates", "ramrod/stix/stix_1_0_1.py:TransCommonContributors", "ramrod/stix/__init__.py:update"]}
{"id": "C80", "title": "A refusal announces what force does", "statement": "If an update is refused for untranslatable content and the same update with force succeeds, the removed nodes it reports begin with copies of the elements the refusal listed, one by one and in the same order. If the refusal also lists shared ids, nothing else is removed, and the report of new ids names exactly the listed ids, in the same order, each with one new id per listed element.", "quantifier": "every document, version pair, all options, any id supply", "why_tests_cant": "Relates the content of an exception to the result of a second run with other arguments; the two are produced by different code paths and the later steps of the chain could add to the report.", "anchors": ["ramrod/base.py:BaseUpdater._clean", "ramrod/base.py:BaseUpdater._force_update", "ramrod/base.py:BaseUpdater.update", "ramrod/cybox/cybox_2_0_1.py:check_update", "ramrod/stix/stix_1_0.py:check_update", "ramrod/stix/stix_1_0_1.py:check_update", "ramrod/stix/__init__.py:update"]}
