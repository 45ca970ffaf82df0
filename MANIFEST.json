{
 "claims": [
  {
   "property": "C01",
   "status": "proved",
   "theorems": [
    "C01_dispatch"
   ],
   "note": "All arguments, all documents."
  },
  {
   "property": "C02",
   "status": "proved",
   "theorems": [
    "C02_stix_range",
    "C02_cybox_range"
   ],
   "note": "Every outcome of the version-range validation, for arbitrary strings."
  },
  {
   "property": "C03",
   "status": "proved",
   "theorems": [
    "C03_stix_chain",
    "C03_cybox_chain"
   ],
   "note": "The run is the one-step updaters of the releases in between, in order."
  },
  {
   "property": "C04",
   "status": "proved",
   "theorems": [
    "C04_stix_two_hops",
    "C04_cybox_two_hops"
   ],
   "note": "Including the error outcomes; removed nodes concatenated, remapped ids merged."
  },
  {
   "property": "C05",
   "status": "proved",
   "theorems": [
    "C05_stix",
    "C05_cybox"
   ],
   "note": "Any successful update, forced or not, ends with a root that carries exactly the requested release."
  },
  {
   "property": "C06",
   "status": "proved",
   "theorems": [
    "C06_step",
    "C06_clean",
    "C06_update"
   ],
   "note": "Heap model of document objects: no call writes to an object that existed before it."
  },
  {
   "property": "C07",
   "status": "proved",
   "theorems": [
    "C07_unforced_removes_nothing"
   ],
   "note": ""
  },
  {
   "property": "C08",
   "status": "partial",
   "theorems": [
    "C08_update_error_partial",
    "C08_malformed_type_fails"
   ],
   "note": "For every unforced step on a document with correct versions: the update fails with UpdateError exactly when there is untranslatable content or a shared id, and the error lists exactly the reported elements, in order, and the id groups. For the steps from STIX 1.0 and 1.0.1 the xsi:type values must be well formed; otherwise ValueError or KeyError comes out (negation with witness). Force and the run through the whole chain are in C10/C11."
  },
  {
   "property": "C09",
   "status": "partial",
   "theorems": [
    "C09_steps_partial",
    "C09_cybox_partial",
    "C09_stix_partial",
    "C09_malformed_fails",
    "C09_second_package_fails",
    "C09_blame",
    "C09_update_blame"
   ],
   "note": "All seven steps: iff, when no version in the document is malformed; for CybOX all nested Observables, for STIX the first package of the document and, in the steps from 1.0 and 1.0.1, every element with embedded CybOX content (C09_steps_partial). Without the assumption on unrelated versions: C09_cybox_partial and C09_stix_partial. Negations: a malformed version raises ValueError instead of a refusal; a second STIX_Package of another version is accepted. Every InvalidVersionError of a step names an element of the document, the version this element says and a different version that the step asks for (C09_blame); for whole updates the error may instead be about the requested range and then names nothing (C09_update_blame)."
  },
  {
   "property": "C10",
   "status": "proved",
   "theorems": [
    "C10_checks_off"
   ],
   "note": "Per step, for all seven updaters."
  },
  {
   "property": "C11",
   "status": "proved",
   "theorems": [
    "C11_stix_forced",
    "C11_cybox_forced"
   ],
   "note": ""
  },
  {
   "property": "C12",
   "status": "partial",
   "theorems": [
    "C12_update_partial",
    "C12_stix_partial",
    "C12_cybox_partial",
    "C12_step12_fails",
    "C12_malformed_version_fails",
    "C12_malformed_type_fails",
    "C12_reference_fails",
    "C12_content_fails"
   ],
   "note": "False as stated: a forced step from 1.2 raises NotImplementedError, and malformed versions, malformed or unbound xsi:type values, two vocabularies with a reference, DNT/Vary without a value, comments among contributors and sources with markup characters raise errors. Proved: every accepted range succeeds under force for documents free of these, whatever untranslatable content, shared ids and wrong versions they have."
  },
  {
   "property": "C13",
   "status": "partial",
   "theorems": [
    "C13_cybox",
    "C13_left_partial",
    "C13_complete_partial",
    "C13_left_fails"
   ],
   "note": "Full for CybOX. For STIX the code leaves a ttp:Malware or ttp:Attack_Patterns element that only became untranslatable by losing children (C13_left_fails); C13_left_partial shows nothing else is left, for every document, assuming schema validation accepts a date only without child elements and id."
  },
  {
   "property": "C14",
   "status": "partial",
   "theorems": [
    "C14_frame_partial",
    "C14_tail_fails"
   ],
   "note": "Everything but text that follows a removed element: it is removed with the element (C14_tail_fails)."
  },
  {
   "property": "C15",
   "status": "proved",
   "theorems": [
    "C15_unique",
    "C15_shipped"
   ],
   "note": ""
  },
  {
   "property": "C16",
   "status": "proved",
   "theorems": [
    "C16_remap"
   ],
   "note": "The elements changed are those sharing an id below the root in the known namespaces of the step."
  },
  {
   "property": "C17",
   "status": "proved",
   "theorems": [
    "C17_schemaLocation_exact",
    "C17_white_space"
   ],
   "note": "Every step, forced or not, every attribute value: the new value lists exactly the rewritten pairs in order; none is invented."
  },
  {
   "property": "C18",
   "status": "proved",
   "theorems": [
    "C18_print_read",
    "C18_rewrite_twice"
   ],
   "note": "Round trip for all pairs of words; double rewriting for every class and every document."
  },
  {
   "property": "C19",
   "status": "partial",
   "theorems": [
    "C19_pass_partial",
    "C19_succeeds_partial",
    "C19_tuple_reference_fails"
   ],
   "note": "Holds for every successful vocabulary pass, and the pass succeeds on well-typed documents unless an outdated value of one of two vocabularies has a vocab_reference; those two have a tuple as reference and the update raises TypeError (negation proved)."
  },
  {
   "property": "C20",
   "status": "proved",
   "theorems": [
    "C20_pass",
    "C20_step",
    "C20_embedded"
   ],
   "note": "For every step's own vocabularies, forced or not; also for the CybOX content of a 1.0 package. The CybOX vocabularies inside a 1.0.1 package are covered by C20_step for the CybOX step only."
  },
  {
   "property": "C21",
   "status": "partial",
   "theorems": [
    "C21_frame_partial",
    "C21_list_text_fails"
   ],
   "note": "For all seven steps: with remove_optionals off every element outside the translated fields survives at its place; with update_vocabularies off xsi:type, vocab_name, vocab_reference are unchanged and texts too, except texts under CybOX Properties in the 2.0/1.0 steps (counterexample proved) and mixed content of elements moved to another namespace. Missing: content inside translated fields (C28-C33)."
  },
  {
   "property": "C22",
   "status": "partial",
   "theorems": [
    "C22_cybox_partial",
    "C22_stix11_partial",
    "C22_stix101_partial",
    "C22_other",
    "C22_text_partial",
    "C22_tail_fails",
    "C22_inner_fails"
   ],
   "note": "Each pass removes exactly the empty listed elements and leaves none; steps without such a list ignore the option. Fails for text: text after a removed element is lost, and an element whose text follows an inner comment counts as empty. For the 1.0.1 step the two passes are described separately."
  },
  {
   "property": "C23",
   "status": "partial",
   "theorems": [
    "C23_versions_partial",
    "C23_stix11_partial",
    "C23_stix12_partial",
    "C23_related_campaign_fails",
    "C23_nested_package_fails"
   ],
   "note": "Steps 1.0, 1.0.1 and 1.1.1 full; step 1.1 for documents whose related campaigns have no version and whose source strings have no markup characters; for step 1.2 exactly the first version attribute of the document is changed, to 1.2.1 (C23_stix12_partial). Negations: a related campaign's version goes stale (1.1); nested packages keep 1.2 (1.2 step)."
  },
  {
   "property": "C24",
   "status": "proved",
   "theorems": [
    "C24_step",
    "C24_update",
    "C24_round_trip"
   ],
   "note": "Every Observables element, one step and whole update; version string and attributes determine each other."
  },
  {
   "property": "C25",
   "status": "partial",
   "theorems": [
    "C25_partial",
    "C25_text_partial",
    "C25_mixed_fails",
    "C25_declaration_fails"
   ],
   "note": "Element by element for every document; without mixed content no character besides white space is lost. Missing: text beside child nodes and tails of renamed elements are dropped, declarations on other elements stay; both negations are proved."
  },
  {
   "property": "C26",
   "status": "partial",
   "theorems": [
    "C26_partial",
    "C26_cybox201_partial",
    "C26_stix_fails",
    "C26_cybox_fails"
   ],
   "note": "STIX 1.2 step, when the renamed namespaces are declared on renamed elements only; CybOX 2.0.1 step likewise, for documents without HTTP headers DNT, Vary, Refresh and mailslot handles (which are built anew). It fails for declarations on other elements, in the CybOX 2.0.1 step for declarations on the root; both negations are proved."
  },
  {
   "property": "C27",
   "status": "partial",
   "theorems": [
    "C27_text",
    "C27_partial",
    "C27_stix_partial",
    "C27_stix_forced_partial",
    "C27_nested_fails",
    "C27_marker_fails",
    "C27_comment_fails"
   ],
   "note": "For every text exactly when the item list is kept (C27_text); for every element of a CybOX 2.0 document, forced or not, and of a STIX 1.0 document (what forcing leaves of it), inside one object properties element, values of outdated vocabularies excepted; texts outside stay (C27_partial, C27_stix_partial, C27_stix_forced_partial). Fails for properties nested in properties (converted twice), items containing the new marker, and text after comments."
  },
  {
   "property": "C28",
   "status": "partial",
   "theorems": [
    "C28_partial",
    "C28_no_value_fails",
    "C28_comment_fails"
   ],
   "note": "Every successful run of the CybOX 2.0.1 step is the stated sequence of stages; the outermost DNT/Vary/Refresh fields become strings with the text and attributes of the value. The claim fails for fields without a value (IndexError) and for values with text after a comment (lost); both negations are proved."
  },
  {
   "property": "C29",
   "status": "proved",
   "theorems": [
    "C29_spelling",
    "C29_none_left",
    "C29_stix_none_left",
    "C28_partial"
   ],
   "note": "The renaming is one pass over all elements below the root; no misspelt name is left, also in STIX packages. In documents with other translated fields it is one stage of C28_partial."
  },
  {
   "property": "C30",
   "status": "partial",
   "theorems": [
    "C30_partial",
    "C30_stix_partial",
    "C30_nested_fails",
    "C30_outer_lost"
   ],
   "note": "Flattening holds for documents passing the check, CybOX and STIX; none is left if no handle is inside a handle. Negations: nested handles leave a two-level one; attributes and text of the outer handle are lost."
  },
  {
   "property": "C31",
   "status": "partial",
   "theorems": [
    "C31_exploit_partial",
    "C31_campaign_partial",
    "C31_nested_target_fails",
    "C31_nested_campaign_fails"
   ],
   "note": "Every outermost target and campaign is wrapped as it is, and no other change is made at that stage; none is left unwrapped when they are not nested (and, for campaigns, sources have plain text). Negations: nested ones stay unwrapped."
  },
  {
   "property": "C32",
   "status": "partial",
   "theorems": [
    "C32_partial",
    "C32_comment_fails",
    "C32_list_lost",
    "C32_nested_fails"
   ],
   "note": "Each outermost list becomes a list of sources with the same identities in order. Negations: a comment in the list raises AttributeError; attributes and text of the list are lost; nested lists stay."
  },
  {
   "property": "C33",
   "status": "partial",
   "theorems": [
    "C33_partial",
    "C33_markup_fails",
    "C33_empty_fails",
    "C33_rest_lost"
   ],
   "note": "Plain texts become the name of an identity exactly. Negations: text with & is put into XML unescaped and the parse fails; a missing text becomes the name None; attributes and later text are lost."
  },
  {
   "property": "C34",
   "status": "proved",
   "theorems": [
    "C34_equality",
    "C34_patch_zero",
    "C34_order",
    "C34_releases"
   ],
   "note": ""
  },
  {
   "property": "C35",
   "status": "partial",
   "theorems": [
    "C35_partial",
    "C35_declarations_fail"
   ],
   "note": "The schemaLocation part holds for every document; the declarations stay, negation proved."
  },
  {
   "property": "C36",
   "status": "partial",
   "theorems": [
    "C36_partial",
    "C36_up_partial",
    "C36_down_partial",
    "C36_pipe_partial",
    "C36_pi_fails",
    "C36_overlap_fails"
   ],
   "note": "For lists without repetition or overlap whose entries are single words, and documents that do not use a target namespace and have no processing instruction: forward gives the renamed document, forward then backward gives the original up to attribute order, re-spelt declarations and blanks in schemaLocation (C36_partial); the shipped lists in both directions including the root version (C36_up_partial, C36_down_partial), also as two runs of the script from their command lines (C36_pipe_partial). Fails for any document with a processing instruction (C36_pi_fails) and for overlapping lists (C36_overlap_fails)."
  },
  {
   "property": "C37",
   "status": "partial",
   "theorems": [
    "C37_partial",
    "C37_names_partial",
    "C37_fails"
   ],
   "note": "The script agrees with the library on every namespace except seven, named in the statement (C37_partial); on documents not using these the element names agree (C37_names_partial). A missing comma in STIX_NS_1_2 shifts the table (C37_fails)."
  },
  {
   "property": "C38",
   "status": "proved",
   "theorems": [
    "C38_success",
    "C38_refused",
    "C38_outcomes",
    "C38_checks",
    "C38_switches",
    "C38_from_given",
    "C38_from_given_cybox"
   ],
   "note": "Over parsed arguments (argparse itself is not modelled) and an abstract file system whose writes succeed. An empty --from value counts as not given. Other exceptions (missing file, malformed version, NotImplementedError) escape; nothing is written then either (C38_outcomes)."
  },
  {
   "property": "C39",
   "status": "proved",
   "theorems": [
    "C39_force_conservative",
    "C39_other_errors"
   ],
   "note": ""
  },
  {
   "property": "C40",
   "status": "proved",
   "theorems": [
    "C40_check_sound"
   ],
   "note": ""
  },
  {
   "property": "C41",
   "status": "proved",
   "theorems": [
    "C41_clean_check"
   ],
   "note": ""
  },
  {
   "property": "C42",
   "status": "proved",
   "theorems": [
    "C42_defaults",
    "C42_stix_read_back",
    "C42_cybox_read_back"
   ],
   "note": "Defaults and read-back of the version of the result."
  },
  {
   "property": "C43",
   "status": "proved",
   "theorems": [
    "C43_cybox20",
    "C43_stix10",
    "C43_stix111"
   ],
   "note": "Unforced steps keep element tree, tags, tails, comments and all attributes outside the version, vocabulary and schemaLocation attributes."
  },
  {
   "property": "C44",
   "status": "partial",
   "theorems": [
    "C44_cybox",
    "C44_once_partial",
    "C44_dates_fails",
    "C44_overlap_fails"
   ],
   "note": "Full for CybOX; for STIX the exact condition, and two documents that violate the property."
  },
  {
   "property": "C45",
   "status": "partial",
   "theorems": [
    "C45_next_partial",
    "C45_chain_partial",
    "C45_cybox",
    "C45_embedded_fails"
   ],
   "note": "CybOX in full. STIX: for documents with a package of the stix-1 namespace at the root; and, from 1.0, whose ttp:Targeted_Technical_Details and coa:Parameter_Observables say CybOX 2.0.1 or are absent. Negation: with CybOX 2.0 there the update from 1.0 to 1.1 passes its first step and is refused by the second."
  },
  {
   "property": "C46",
   "status": "partial",
   "theorems": [
    "C46_plain_steps",
    "C46_cybox201_partial",
    "C46_stix101_partial",
    "C46_stix11_partial",
    "C46_update_partial",
    "C46_none_new",
    "C46_lost_fails",
    "C46_dangling_fails"
   ],
   "note": "Proved where the attribute is not on an element that is replaced; the code drops attributes of replaced elements and leaves references to remapped ids dangling, shown by witnesses."
  },
  {
   "property": "C47",
   "status": "partial",
   "theorems": [
    "C47_plain_steps_partial",
    "C47_cybox201_partial",
    "C47_stix101_partial",
    "C47_stix11_partial",
    "C47_update_partial",
    "C47_lost_fails"
   ],
   "note": "Each step, and a whole unforced update, keeps every character that is not white space, in order. Missing: mixed content, comma separators inside object properties (C27), corrected vocabulary terms (C20), and text in replaced elements at other places than the translation reads; C47_lost_fails shows the loss."
  },
  {
   "property": "C48",
   "status": "partial",
   "theorems": [
    "C48_stix_partial",
    "C48_cybox",
    "C48_core",
    "C48_declared_partial",
    "C48_misspelt_fails",
    "C48_final_fails"
   ],
   "note": "A whole update, forced or not, gives each known namespace on the root the schema location of the target release; locations fit namespace and release. Missing: STIX 1.2.1 has no locations (C48_final_fails); two namespaces are misspelt (C48_misspelt_fails)."
  },
  {
   "property": "C49",
   "status": "proved",
   "theorems": [
    "C49_update",
    "C49_stix",
    "C49_cybox",
    "C49_prefixes",
    "C49_comment_fails"
   ],
   "note": "Equivariance of whole updates, results and errors. For STIX the prefixes stixCommon and indicator, which the library writes itself, must stay, and the external date validator and parser must not depend on the renaming. C49_comment_fails shows that the presence of a comment, unlike its contents, can matter."
  },
  {
   "property": "C50",
   "status": "partial",
   "theorems": [
    "C50_stdout_partial",
    "C50_unforced_partial",
    "C50_file_partial",
    "C50_stdout_fails",
    "C50_heading_fails"
   ],
   "note": "The document is alone on standard output exactly when nothing was removed and no id changed, in particular without --force. The code violates the rest: reports of a forced run follow the document on standard output, and a refusal prints the heading of the shared ids there; both negations proved."
  },
  {
   "property": "C51",
   "status": "partial",
   "theorems": [
    "C51_success",
    "C51_refusal",
    "C51_version_partial",
    "C51_version_fails"
   ],
   "note": "Removed elements, changed ids and refusals are reported completely. The element with a wrong version is named only if it has child nodes (C51_version_fails)."
  },
  {
   "property": "C52",
   "status": "proved",
   "theorems": [
    "C52_split",
    "C52_join",
    "C52_each",
    "C52_assemble",
    "C52_order"
   ],
   "note": "Root of a STIX package, or any root named Observables. Root text is not compared. Forced updates are outside the statement: they number new ids across the document. C52_order: rearranging the children rearranges the result."
  },
  {
   "property": "C53",
   "status": "partial",
   "theorems": [
    "C53_accepted_partial",
    "C53_cybox",
    "C53_stix_partial",
    "C53_again_cybox",
    "C53_again_partial",
    "C53_stix12_fails",
    "C53_malformed_fails",
    "C53_left_fails"
   ],
   "note": "CybOX: every document without a malformed version. STIX: also without malformed xsi:type values, and when cleaning does not take part of the children of a ttp:Malware or ttp:Attack_Patterns element. The 1.2 step cannot clean at all. The negations for these three exceptions are proved."
  },
  {
   "property": "C54",
   "status": "partial",
   "theorems": [
    "C54_documented_partial",
    "C54_malformed_version_fails",
    "C54_malformed_type_fails",
    "C54_reference_fails",
    "C54_content_fails"
   ],
   "note": "Proved for documents in order (well formed versions and types, no tuple reference, values where values are read). For the other documents the code raises ValueError, KeyError, TypeError, IndexError, AttributeError or XMLSyntaxError; witnesses are proved."
  },
  {
   "property": "C55",
   "status": "partial",
   "theorems": [
    "C55_stix_partial",
    "C55_cybox_partial",
    "C55_rebound_fails"
   ],
   "note": "Holds when prefixes of vocabulary namespaces mean the same in the whole document (and Source texts have no markup, the root has no xsi:type). The code violates it when a dropped mailslot handle rebinds a prefix."
  },
  {
   "property": "C56",
   "status": "partial",
   "theorems": [
    "C56_stix_partial",
    "C56_cybox_partial",
    "C56_stix_forced_partial",
    "C56_cybox_forced_partial",
    "C56_comma_fails",
    "C56_lost_fails",
    "C56_contributor_fails",
    "C56_instance_fails"
   ],
   "note": "Proved for all documents and version pairs when no foreign element stands inside a replaced field or as a contributor and foreign text in object properties has no comma (source 1.0/2.0). For forced updates each foreign part is in the result or in a removed element, if no element in it is declared to be a malware or attack pattern instance. The four exceptions are proved to change or lose foreign content."
  },
  {
   "property": "C57",
   "status": "partial",
   "theorems": [
    "C57_stix_partial",
    "C57_cybox",
    "C57_injection_fails"
   ],
   "note": "CybOX: proved for all documents, versions and options, forced or not. STIX: proved when the sources that are strings have no markup characters; otherwise the text is parsed as XML and its markup becomes elements, which C57_injection_fails shows."
  },
  {
   "property": "C58",
   "status": "partial",
   "theorems": [
    "C58_stix_step_partial",
    "C58_cybox_step_partial",
    "C58_stix_partial",
    "C58_cybox_partial",
    "C58_unlisted_fails",
    "C58_types_fails",
    "C58_no_page_fails"
   ],
   "note": "Proved for every step with a page and for chains of them, for documents that are also without five things the steps change although the manual does not list them. C58_unlisted_fails, C58_types_fails and C58_no_page_fails show each of these, and that the 1.2 to 1.2.1 update has no page at all."
  },
  {
   "property": "C59",
   "status": "partial",
   "theorems": [
    "C59_stix111",
    "C59_stix12",
    "C59_stix11_partial",
    "C59_cybox20_partial",
    "C59_stix10_step_partial",
    "C59_cybox201_step_partial",
    "C59_stix101_step_partial",
    "C59_stix101_partial",
    "C59_refresh_partial",
    "C59_refresh_step_partial",
    "C59_mailslot_partial",
    "C59_mailslot_step_partial",
    "C59_stix101_fields_partial",
    "C59_lists_fails",
    "C59_sources_fails",
    "C59_campaign_fails",
    "C59_headers_fails",
    "C59_handles_fails",
    "C59_contributors_fails",
    "C59_targets_fails",
    "C59_emptied_fails"
   ],
   "note": "Full for the steps from STIX 1.1.1 and 1.2. For the others it holds for documents without escaped commas (2.0, 1.0), without statement sources, sighting sources and related campaigns (1.1), and without the four CybOX and two STIX fields that are built anew (2.0.1, 1.0.1); the theorem with the checks of 1.0.1 also asks for plain activity dates, no Windows driver elements, and TTP elements as children of ttp:Malware and ttp:Attack_Patterns. The code violates the property for escaped commas, sources, related campaigns, the DNT header, a handle in a handle, contributors in a contributor, exploit targets in an exploit target, and a ttp:Malware emptied by the first run (the eight _fails theorems). C59_refresh_step_partial allows Refresh fields in CybOX 2.0.1 documents, with the checks of the second run; C59_refresh_partial does so for the second run after its checks, and asks nothing of their attributes. C59_mailslot_step_partial and C59_mailslot_partial do the same and also allow mailslot handles, if no handle is inside a handle. C59_stix101_fields_partial allows Refresh fields and mailslot handles in STIX 1.0.1 packages, for the second run after its checks. Not treated: repeated runs on contributors and exploit targets that are not nested, and the checks of the second run on STIX packages with Refresh fields or mailslot handles."
  },
  {
   "property": "C60",
   "status": "proved",
   "theorems": [
    "C60_reads",
    "C60_refuses",
    "C60_runs",
    "C60_order"
   ],
   "note": "Exact in both directions. The rules of argparse itself are those of CPython 3.11 and part of the trusted base; what counts as a negative number is left open."
  },
  {
   "property": "C61",
   "status": "partial",
   "theorems": [
    "C61_clean",
    "C61_clean_ids",
    "C61_update_partial",
    "C61_update_ids_partial",
    "C61_update_texts_partial",
    "C61_lost_fails"
   ],
   "note": "Full for the cleaning of every step (C61_clean, C61_clean_ids), with untranslatable elements nested and reported in any order. For whole updates it holds for documents without the seven elements that are replaced by others; for text also without mixed content, commas in object properties and vocabulary terms to correct. The code violates the property where elements are replaced: their attributes are neither in the result nor in the report (C61_lost_fails)."
  },
  {
   "property": "C62",
   "status": "proved",
   "theorems": [
    "C62_step",
    "C62_stix",
    "C62_cybox",
    "C62_update",
    "C62_converse_fails"
   ],
   "note": "For one step the removed elements are equal, for a chain they agree as the documents do. STIX chains assume that the date parser, which is left open, gives the same verdict on documents that agree (a vocabulary term is no date). The converse does not hold: the vocabulary update can raise TypeError (C62_converse_fails, see C19)."
  },
  {
   "property": "C63",
   "status": "partial",
   "theorems": [
    "C63_names",
    "C63_kept_partial",
    "C63_clash_fails",
    "C63_main",
    "C63_file"
   ],
   "note": "All parts hold for every input except that no attribute is lost: two attributes that get the same name become one (C63_clash_fails). C63_kept_partial shows that none is lost on elements without such a clash."
  },
  {
   "property": "C64",
   "status": "partial",
   "theorems": [
    "C64_stix_partial",
    "C64_cybox_partial",
    "C64_dropped_fails",
    "C64_rebound_fails"
   ],
   "note": "Proved for documents that declare every prefix on the root and with one meaning (and, for STIX, sources without markup characters). The code violates it for other declarations: a declaration on a replaced element is lost with it, which leaves a type with an unbound prefix (C64_dropped_fails) or with another meaning (C64_rebound_fails)."
  },
  {
   "property": "C65",
   "status": "partial",
   "theorems": [
    "C65_subsequence_partial",
    "C65_ids_partial",
    "C65_cybox",
    "C65_markup_fails"
   ],
   "note": "In full for CybOX documents (C65_cybox). For STIX proved for documents whose sources have no markup characters (for ids of forced updates: if they are unique). The code violates it when the text of a source contains markup with an id (C65_markup_fails)."
  },
  {
   "property": "C66",
   "status": "partial",
   "theorems": [
    "C66_subsequence_partial",
    "C66_cybox",
    "C66_kept_partial",
    "C66_lost_fails",
    "C66_markup_fails"
   ],
   "note": "The first part is proved in full for CybOX documents (C66_cybox), for STIX for documents whose sources have no markup characters; the code violates it when the text of a source contains a comment (C66_markup_fails). The second part is proved as stated; comments beside the value of a field and in empty optional elements are lost (C66_lost_fails)."
  },
  {
   "property": "C67",
   "status": "proved",
   "theorems": [
    "C67_reads",
    "C67_prints",
    "C67_refuses"
   ],
   "note": "Exact in both directions. The rules of argparse itself are those of CPython 3.11 and part of the trusted base; what counts as a negative number, parsing and writing of XML are left open."
  },
  {
   "property": "C68",
   "status": "partial",
   "theorems": [
    "C68_switch_partial",
    "C68_exact_partial",
    "C68_text_fails",
    "C68_on_fails",
    "C68_off_fails"
   ],
   "note": "Exact for every target but STIX 1.2.1, CybOX included (C68_exact_partial). For 1.2.1 the property is false for texts: the renaming step drops the text of elements with children, so an element whose only child was removed keeps a text it loses otherwise (C68_text_fails); all else is the same (C68_switch_partial). That both updates succeed is needed: either can fail where the other succeeds (C68_on_fails, C68_off_fails). Assumes that the XML parser yields elements."
  },
  {
   "property": "C69",
   "status": "proved",
   "theorems": [
    "C69_newIds",
    "C69_unforced"
   ],
   "note": "For ramrod.update on every document, with no assumption on the functions (each sets the id of the node it is given), the parser or the date validator."
  },
  {
   "property": "C70",
   "status": "partial",
   "theorems": [
    "C70_root_partial",
    "C70_lost",
    "C70_fails",
    "C70_script_partial",
    "C70_script_fails"
   ],
   "note": "False: each step copies the root element alone, so a successful update always loses what stands beside the root (C70_lost for all documents, C70_fails as a witness); the rest of the outcome does not depend on it (C70_root_partial). The namespace script keeps it when no namespace declared at the root is renamed (C70_script_partial) and otherwise loses it (C70_script_fails). Rests on lxml: a copied or newly made element has no siblings."
  },
  {
   "property": "C71",
   "status": "proved",
   "theorems": [
    "C71_embedded"
   ],
   "note": "For the direct stix:Observables child of the package, with the namespaces in scope there declared on the CybOX root. Content holding STIX elements, STIX types or a nested cybox:Observables is excluded: the STIX steps are meant to change the former, and a CybOX update also writes the version on the latter. Only the direction from the package to the CybOX document; the package can be refused for reasons outside the content."
  },
  {
   "property": "C72",
   "status": "partial",
   "theorems": [
    "C72_stix_partial",
    "C72_cybox_partial",
    "C72_default_fails",
    "C72_argument_fails"
   ],
   "note": "Proved when the caller gives the source version. It fails when the source version is read from the document, and for the versions the caller gives: there only the exact spelling of a release is accepted, while the version check compares numbers. Spellings that add or drop an attribute (cybox_update_version=\"0\" against none) are not covered, nor are repeated attribute names, which XML forbids."
  },
  {
   "property": "C73",
   "status": "proved",
   "theorems": [
    "C73_stix",
    "C73_cybox"
   ],
   "note": "Stated from one document to the other; the hypotheses are symmetric, so success is equivalent. The two roots have the same attribute names (no name twice, as XML demands)."
  },
  {
   "property": "C74",
   "status": "partial",
   "theorems": [
    "C74_stix_partial",
    "C74_cybox_partial",
    "C74_root_fails",
    "C74_foreign_fails",
    "C74_later_fails"
   ],
   "note": "Proved for documents in which every id is unique already or stands below the root in a namespace the step knows. Without that it fails: the root is not looked at, nor are elements in other namespaces, and packages from 1.1 on are not checked at all. For STIX, sources must be plain text (see C65). Repeated attribute names, which XML forbids, are not covered."
  },
  {
   "property": "C75",
   "status": "proved",
   "theorems": [
    "C75_quiet",
    "C75_checks_off",
    "C75_version_needed"
   ],
   "note": "C75_version_needed shows that the exception for versions cannot be dropped: content of a wrong version is updated by force without a trace in the report."
  },
  {
   "property": "C76",
   "status": "proved",
   "theorems": [
    "C76_calls",
    "C76_called"
   ],
   "note": "The calls are numbered by the counter of the model; what else the function does is not modelled."
  },
  {
   "property": "C77",
   "status": "proved",
   "theorems": [
    "C77_off",
    "C77_on",
    "C77_stops"
   ],
   "note": "C77_stops shows that each of the three ways to stop occurs. The third is the missing cleaning of the step from 1.2 (see C12): forcing fails where switching the check off succeeds."
  },
  {
   "property": "C78",
   "status": "proved",
   "theorems": [
    "C78_named",
    "C78_unnamed",
    "C78_differs"
   ],
   "note": "C78_differs shows that the second case of the converse occurs (through C45)."
  },
  {
   "property": "C79",
   "status": "partial",
   "theorems": [
    "C79_clean",
    "C79_update_partial",
    "C79_replaced_fails"
   ],
   "note": "Full for cleaning. For whole updates it holds for documents without the seven elements that are replaced by others; for those the code violates it: a replaced element loses the new id that the report names (C79_replaced_fails)."
  },
  {
   "property": "C80",
   "status": "proved",
   "theorems": [
    "C80_announced",
    "C80_more"
   ],
   "note": "A refusal by the first STIX step carries no list of shared ids; C80_more shows that later steps can then remove more than was announced."
  }
 ]
}
