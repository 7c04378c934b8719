{
 "claims": [
  {
   "property": "C01",
   "status": "proved",
   "theorems": [
    "NomSparql.C01_sparqlQueryStmt",
    "NomSparql.C01_sparqlQuery",
    "NomSparql.C01_selectQuery",
    "NomSparql.C01_constructQuery",
    "NomSparql.C01_describeQuery",
    "NomSparql.C01_askQuery",
    "NomSparql.C01_subTriples",
    "NomSparql.C01_subConstruct",
    "NomSparql.C01_update"
   ],
   "note": "Every entry point, every input; by the Good judgement on all parsers."
  },
  {
   "property": "C02",
   "status": "proved",
   "theorems": [
    "NomSparql.C02_sparqlQueryStmt",
    "NomSparql.C02_sparqlQuery",
    "NomSparql.C02_selectQuery",
    "NomSparql.C02_constructQuery",
    "NomSparql.C02_describeQuery",
    "NomSparql.C02_askQuery",
    "NomSparql.C02_subTriples",
    "NomSparql.C02_subConstruct",
    "NomSparql.C02_update"
   ],
   "note": "Both Error and Failure positions, every entry point."
  },
  {
   "property": "C03",
   "status": "proved",
   "theorems": [
    "NomSparql.C03_sparqlQueryStmt",
    "NomSparql.C03_sparqlQuery",
    "NomSparql.C03_selectQuery",
    "NomSparql.C03_constructQuery",
    "NomSparql.C03_describeQuery",
    "NomSparql.C03_askQuery",
    "NomSparql.C03_update",
    "NomSparql.C03_budget",
    "NomSparql.C03_equations"
   ],
   "note": "The model's recursion budget (input length + 1) is never exhausted, larger budgets change nothing, and the parsers satisfy their unbudgeted recursion equations."
  },
  {
   "property": "C04",
   "status": "proved",
   "theorems": [
    "NomSparql.C04_sparqlQueryStmt",
    "NomSparql.C04_sparqlQuery",
    "NomSparql.C04_constructQuery",
    "NomSparql.C04_describeQuery",
    "NomSparql.C04_askQuery",
    "NomSparql.C04_updateStmt",
    "NomSparql.C04_update_empty"
   ],
   "note": "Queries and update statements consume; update itself accepts the empty text (C04_update_empty)."
  },
  {
   "property": "C05",
   "status": "partial",
   "theorems": [
    "NomSparql.C05_sparqlQueryStmt_partial",
    "NomSparql.C05_sparqlQuery_partial",
    "NomSparql.C05_selectQuery_partial",
    "NomSparql.C05_constructQuery_partial",
    "NomSparql.C05_describeQuery_partial",
    "NomSparql.C05_askQuery_partial",
    "NomSparql.C05_subTriples_partial",
    "NomSparql.C05_subConstruct_partial",
    "NomSparql.C05_update_partial",
    "NomSparql.C05_groupGraphPattern_partial",
    "NomSparql.C05_expression_partial",
    "NomSparql.C05_prologue",
    "NomSparql.C05_dataSetClause",
    "NomSparql.C05_usingClause",
    "NomSparql.C05_datablock",
    "NomSparql.C05_limitOffsetClause",
    "NomSparql.C05_triplesTemplate",
    "NomSparql.C05_quads",
    "NomSparql.C05_quadData",
    "NomSparql.C05_insertData",
    "NomSparql.C05_deleteData",
    "NomSparql.C05_deleteWhereData",
    "NomSparql.C05_deleteInsert",
    "NomSparql.C05_loadStmt",
    "NomSparql.C05_clearStmt",
    "NomSparql.C05_dropStmt",
    "NomSparql.C05_createStmt",
    "NomSparql.C05_copyStmt",
    "NomSparql.C05_groupGraphPattern_violated",
    "NomSparql.C05_query_violated",
    "NomSparql.C05_query_kelvin_violated"
   ],
   "note": "The property is false for the crate (C05_*_violated: an input family that panics). Every entry point is panic-free on inputs without U+212A and without a non-ASCII character right after white space; data parsers are panic-free on every input."
  },
  {
   "property": "C06",
   "status": "partial",
   "theorems": [
    "NomSparql.C06_sparqlQueryStmt_partial",
    "NomSparql.C06_sparqlQuery_partial",
    "NomSparql.C06_selectQuery_partial",
    "NomSparql.C06_constructQuery_partial",
    "NomSparql.C06_describeQuery_partial",
    "NomSparql.C06_askQuery_partial",
    "NomSparql.C06_subTriples_partial",
    "NomSparql.C06_subConstruct_partial",
    "NomSparql.C06_update_partial",
    "NomSparql.C06_groupGraphPattern_partial",
    "NomSparql.C06_expression_partial",
    "NomSparql.C06_prologue",
    "NomSparql.C06_dataSetClause",
    "NomSparql.C06_usingClause",
    "NomSparql.C06_datablock",
    "NomSparql.C06_limitOffsetClause",
    "NomSparql.C06_triplesTemplate",
    "NomSparql.C06_quads",
    "NomSparql.C06_quadData",
    "NomSparql.C06_insertData",
    "NomSparql.C06_deleteData",
    "NomSparql.C06_deleteWhereData",
    "NomSparql.C06_deleteInsert",
    "NomSparql.C06_loadStmt",
    "NomSparql.C06_clearStmt",
    "NomSparql.C06_dropStmt",
    "NomSparql.C06_createStmt",
    "NomSparql.C06_copyStmt",
    "NomSparql.C06_expression_violated",
    "NomSparql.C06_query_expression_violated",
    "NomSparql.C06_query_path_violated"
   ],
   "note": "The property is false for the crate (C06_*_violated). Every entry point is Incomplete-free on inputs ending with NUL (so appending a NUL rules Incomplete out); data parsers on every input."
  },
  {
   "property": "C07",
   "status": "proved",
   "theorems": [
    "NomSparql.C07_query",
    "NomSparql.C07_update",
    "NomSparql.C07_base",
    "NomSparql.C07_prefix",
    "NomSparql.C07_from",
    "NomSparql.C07_using",
    "NomSparql.C07_where",
    "NomSparql.C07_group",
    "NomSparql.C07_having",
    "NomSparql.C07_order",
    "NomSparql.C07_limit",
    "NomSparql.C07_offset",
    "NomSparql.C07_values",
    "NomSparql.C07_select",
    "NomSparql.C07_insert",
    "NomSparql.C07_delete",
    "NomSparql.C07_add",
    "NomSparql.C07_move",
    "NomSparql.C07_pattern",
    "NomSparql.C07_subSelect",
    "NomSparql.C07_builtInCall",
    "NomSparql.C07_aggregate",
    "NomSparql.C07_op",
    "NomSparql.C07_words",
    "NomSparql.C07_accepted",
    "NomSparql.C07_a_is_sensitive"
   ],
   "note": "Queries, update operations, prologue declarations, clauses, graph patterns, built-in calls: every re-spelling of the leading keyword gives the same remainder, AST or error (error positions point into the respelled input). Stand-alone words: C07_words. The path keyword a is case-sensitive as SPARQL demands (C07_a_is_sensitive)."
  },
  {
   "property": "C08",
   "status": "partial",
   "theorems": [
    "NomSparql.C08_faithful_partial",
    "NomSparql.C08_query_partial",
    "NomSparql.C08_select_partial",
    "NomSparql.C08_construct_partial",
    "NomSparql.C08_describe_partial",
    "NomSparql.C08_ask_partial",
    "NomSparql.C08_subTriples",
    "NomSparql.C08_subConstruct_partial",
    "NomSparql.C08_expression_partial",
    "NomSparql.C08_group_partial",
    "NomSparql.C08_prologue",
    "NomSparql.C08_datablock",
    "NomSparql.C08_template",
    "NomSparql.C08_expression_unfold_partial",
    "NomSparql.C08_group_unfold_partial",
    "NomSparql.C08_function_violated",
    "NomSparql.C08_path_violated",
    "NomSparql.C08_objects_violated"
   ],
   "note": "Every accepted query/statement, expression, pattern is spelled in exactly the consumed text by the rendering of Spec/Render.lean, for all inputs. Partial because that rendering has marked deviations where the code returns a node for another construct: C08_function_violated, C08_path_violated, C08_objects_violated."
  },
  {
   "property": "C09",
   "status": "partial",
   "theorems": [
    "NomSparql.C09_faithful_partial",
    "NomSparql.C09_statement_partial",
    "NomSparql.C09_load",
    "NomSparql.C09_clear",
    "NomSparql.C09_drop",
    "NomSparql.C09_create",
    "NomSparql.C09_copy",
    "NomSparql.C09_add",
    "NomSparql.C09_move",
    "NomSparql.C09_insertData",
    "NomSparql.C09_deleteData",
    "NomSparql.C09_deleteWhere",
    "NomSparql.C09_delete_violated",
    "NomSparql.C09_with_violated"
   ],
   "note": "Every accepted update is spelled in exactly the consumed text. Graph management and data updates are spelled as in SPARQL 1.1; modifications deviate (C09_delete_violated, C09_with_violated)."
  },
  {
   "property": "C10",
   "status": "proved",
   "theorems": [
    "NomSparql.C10_form",
    "NomSparql.C10_exactly",
    "NomSparql.C10_statement",
    "NomSparql.C10_reached_partial"
   ],
   "note": "The form of the accepted query is the form of its leading keyword, exactly; also for statements after the prologue."
  },
  {
   "property": "C11",
   "status": "proved",
   "theorems": [
    "NomSparql.C11_exact",
    "NomSparql.C11_total",
    "NomSparql.C11_sp1_exact",
    "NomSparql.C11_sp1_rejects",
    "NomSparql.C11_interchangeable",
    "NomSparql.C11_sp1_interchangeable",
    "NomSparql.C11_twice",
    "NomSparql.C11_comment",
    "NomSparql.C11_comment_at_end_not_skipped"
   ],
   "note": "Exact (iff) specification of sp and sp1 over units of white space and comments; interchange holds for every parser. A comment at end of input without line end is not skipped (C11_comment_at_end_not_skipped)."
  },
  {
   "property": "C12",
   "status": "partial",
   "theorems": [
    "NomSparql.C12_exact",
    "NomSparql.C12_roundtrip",
    "NomSparql.C12_accepted",
    "NomSparql.C12_latin1",
    "NomSparql.C12_illegal_accepted_violated",
    "NomSparql.C12_legal_rejected_violated"
   ],
   "note": "Exact iff with the class the code implements; round trip for all SPARQL 1.1 start characters below U+10000. The full statement is false: C12_illegal_accepted_violated, C12_legal_rejected_violated (u8 truncation, missing astral range)."
  },
  {
   "property": "C13",
   "status": "partial",
   "theorems": [
    "NomSparql.C13_exact",
    "NomSparql.C13_accepted_legal",
    "NomSparql.C13_latin1",
    "NomSparql.C13_iri",
    "NomSparql.C13_legal_rejected_violated"
   ],
   "note": "Exact iff; everything accepted is legal; exact on Latin-1. The converse fails for legal characters from U+0100 on with low byte at most 0x20 (C13_legal_rejected_violated)."
  },
  {
   "property": "C14",
   "status": "partial",
   "theorems": [
    "NomSparql.C14_roundtrip_partial",
    "NomSparql.C14_accepted",
    "NomSparql.C14_accepted_ns",
    "NomSparql.C14_roundtrip_ns",
    "NomSparql.C14_single_unit_violated",
    "NomSparql.C14_dot_swallowed_violated",
    "NomSparql.C14_space_inside_violated"
   ],
   "note": "Round trip for local names of at least two units over the common character classes, for bare prefixes, and soundness. False in general: single-unit local names, swallowed dots, white space inside (the _violated theorems)."
  },
  {
   "property": "C15",
   "status": "partial",
   "theorems": [
    "NomSparql.C15_exact",
    "NomSparql.C15_roundtrip",
    "NomSparql.C15_empty_violated",
    "NomSparql.C15_newline_violated",
    "NomSparql.C15_bad_escape"
   ],
   "note": "Exact iff, round trip, bad escapes rejected. False parts: the empty string is never accepted, raw line ends are."
  },
  {
   "property": "C16",
   "status": "proved",
   "theorems": [
    "NomSparql.C16_language",
    "NomSparql.C16_datatype_iri",
    "NomSparql.C16_datatype_prefixed",
    "NomSparql.C16_datatype_prefixed_accepted",
    "NomSparql.C16_plain",
    "NomSparql.C16_plain_accepted"
   ],
   "note": "iff for language tags (longest match) and <iri> datatypes, both directions for prefixed datatypes, absence."
  },
  {
   "property": "C17",
   "status": "partial",
   "theorems": [
    "NomSparql.C17_exact",
    "NomSparql.C17_roundtrip",
    "NomSparql.C17_value",
    "NomSparql.C17_overflow_violated"
   ],
   "note": "Exact iff on the i64 range. Values outside silently become doubles for every such text (C17_overflow_violated)."
  },
  {
   "property": "C18",
   "status": "partial",
   "theorems": [
    "NomSparql.C18_never_int",
    "NomSparql.C18_decimal",
    "NomSparql.C18_double_partial",
    "NomSparql.C18_accepted",
    "NomSparql.C18_missing_exponent",
    "NomSparql.C18_exponent_overflow_violated"
   ],
   "note": "Exact decimal values (the rounding to f64 is C65): round trips, soundness, never an integer, missing digits fail hard. An exponent outside i64 is dropped and left in the input (C18_exponent_overflow_violated)."
  },
  {
   "property": "C19",
   "status": "proved",
   "theorems": [
    "NomSparql.C19_exact"
   ],
   "note": "iff over all inputs."
  },
  {
   "property": "C20",
   "status": "partial",
   "theorems": [
    "NomSparql.C20_label",
    "NomSparql.C20_label_accepted",
    "NomSparql.C20_longest",
    "NomSparql.C20_anon",
    "NomSparql.C20_bracket_failure",
    "NomSparql.C20_dot_swallowed_violated"
   ],
   "note": "Round trip, soundness, longest match, anonymous node iff, bracket failure. False part: dots after a one-character label are swallowed (C20_dot_swallowed_violated)."
  },
  {
   "property": "C21",
   "status": "partial",
   "theorems": [
    "NomSparql.C21_exact",
    "NomSparql.C21_agrees_partial",
    "NomSparql.C21_complete_bmp",
    "NomSparql.C21_false_accept_violated",
    "NomSparql.C21_false_reject_violated"
   ],
   "note": "The implemented class is determined over all of Unicode; agreement on Latin-1 and on the BMP without letter low bytes; the wrongly accepted and refused characters are characterised exactly."
  },
  {
   "property": "C22",
   "status": "partial",
   "theorems": [
    "NomSparql.C22_documented_partial",
    "NomSparql.C22_simple_violated"
   ],
   "note": "Documented behaviour for typed and tagged first arguments; for every simple first argument the answer is the opposite of the documented one (C22_simple_violated)."
  },
  {
   "property": "C23",
   "status": "proved",
   "theorems": [
    "NomSparql.C23_sign",
    "NomSparql.C23_sign_roundtrip",
    "NomSparql.C23_sign_parser",
    "NomSparql.C23_pathMod",
    "NomSparql.C23_pathMod_injective"
   ],
   "note": "iff over all strings; also agreement of Sign with the parser sign."
  },
  {
   "property": "C24",
   "status": "proved",
   "theorems": [
    "NomSparql.C24_prologue",
    "NomSparql.C24_accepted"
   ],
   "note": "C24_prologue: every canonical list of declarations, whatever follows; C24_accepted: converse from soundness of the renderings."
  },
  {
   "property": "C25",
   "status": "partial",
   "theorems": [
    "NomSparql.C25_from",
    "NomSparql.C25_using",
    "NomSparql.C25_from_accepted",
    "NomSparql.C25_using_accepted",
    "NomSparql.C25_sequence_partial",
    "NomSparql.C25_using_sequence_partial",
    "NomSparql.C25_end_violated",
    "NomSparql.C25_using_end_violated",
    "NomSparql.C25_ask_violated",
    "NomSparql.C25_query_partial",
    "NomSparql.C25_ask_partial"
   ],
   "note": "Violated: a list of FROM or USING clauses not followed by white space is rejected (C25_end_violated, C25_using_end_violated, C25_ask_violated: whole families). Proved: each clause, and every sequence followed by white space."
  },
  {
   "property": "C26",
   "status": "proved",
   "theorems": [
    "NomSparql.C26_limit",
    "NomSparql.C26_offset",
    "NomSparql.C26_limit_offset",
    "NomSparql.C26_offset_limit",
    "NomSparql.C26_limit_only",
    "NomSparql.C26_offset_only",
    "NomSparql.C26_overflow"
   ],
   "note": "Exact characterisation (iff) of the four forms, and rejection of numbers of 2^64 and more."
  },
  {
   "property": "C27",
   "status": "proved",
   "theorems": [
    "NomSparql.C27_datablock",
    "NomSparql.C27_accepted",
    "NomSparql.C27_clause"
   ],
   "note": "C27_datablock: every canonical data block, whatever follows; converse C27_accepted."
  },
  {
   "property": "C28",
   "status": "partial",
   "theorems": [
    "NomSparql.C28_any_rows_violated",
    "NomSparql.C28_violated"
   ],
   "note": "Violated: blocks with any variables and rows of any lengths are accepted; nothing of the property holds."
  },
  {
   "property": "C29",
   "status": "partial",
   "theorems": [
    "NomSparql.C29_only_after_modifier_violated",
    "NomSparql.C29_attached_partial",
    "NomSparql.C29_ask_violated"
   ],
   "note": "Violated: VALUES is attached only after GROUP BY/HAVING/ORDER BY or LIMIT with OFFSET (theorem over all inputs); after ASK with a group alone it is left unread (family). C29_attached_partial: attached when the query leaves white space before VALUES."
  },
  {
   "property": "C30",
   "status": "proved",
   "theorems": [
    "NomSparql.C30_query",
    "NomSparql.C30_update",
    "NomSparql.C30_expression",
    "NomSparql.C30_group",
    "NomSparql.C30_modifier",
    "NomSparql.C30_projection",
    "NomSparql.C30_conditions"
   ],
   "note": "For every accepted query and update, at every depth, the lists named in Spec/Filled have an element (one inductive predicate over the whole tree); corollaries for modifiers, projections and conditions."
  },
  {
   "property": "C31",
   "status": "partial",
   "theorems": [
    "NomSparql.C31_order_needs_ws_violated",
    "NomSparql.C31_group_needs_ws_violated",
    "NomSparql.C31_having_needs_ws_violated",
    "NomSparql.C31_query_violated",
    "NomSparql.C31_violated",
    "NomSparql.C31_ask_violated",
    "NomSparql.C31_partial",
    "NomSparql.C31_limit_partial"
   ],
   "note": "Violated: over all inputs ORDER BY, GROUP BY and HAVING are accepted only when white space follows, so no query ending in one is read to its end (C31_query_violated); every complete clause is ignored there (C31_violated, C31_ask_violated). C31_partial: with white space after each list every modifier is read to the end of the input; LIMIT and OFFSET need none."
  },
  {
   "property": "C32",
   "status": "partial",
   "theorems": [
    "NomSparql.C32_violated",
    "NomSparql.C32_two_violated",
    "NomSparql.C32_unseparated_partial"
   ],
   "note": "Violated: every SELECT whose list continues after white space is rejected, after any prologue and whatever follows. C32_unseparated_partial: variables without white space between them are returned in order, for any number."
  },
  {
   "property": "C33",
   "status": "partial",
   "theorems": [
    "NomSparql.C33_modifier_violated",
    "NomSparql.C33_violated",
    "NomSparql.C33_ask_violated",
    "NomSparql.C33_select_violated",
    "NomSparql.C33_patterns_partial",
    "NomSparql.C33_final_dot_violated"
   ],
   "note": "Violated: every triple with an IRI (or a) as predicate and a ?variable (or +number) as object makes the group, and the ASK or SELECT query, fail (whole families); so does a dot after the last triple. C33_patterns_partial: groups of patterns of any length with $variables or plain terms as objects, or a variable predicate, are returned in order."
  },
  {
   "property": "C34",
   "status": "partial",
   "theorems": [
    "NomSparql.C34_construct_template",
    "NomSparql.C34_block",
    "NomSparql.C34_quads",
    "NomSparql.C34_construct_query",
    "NomSparql.C34_final_dot_violated",
    "NomSparql.C34_query_final_dot_violated"
   ],
   "note": "Proved for CONSTRUCT templates, blocks and quads of any size (C34_construct_template, C34_block, C34_quads), and whole CONSTRUCT queries. Violated: a dot after the last triple of a CONSTRUCT template (family, also for whole queries). Canonical texts need white space before dots; nested nodes see C35."
  },
  {
   "property": "C35",
   "status": "partial",
   "theorems": [
    "NomSparql.C35_node_violated",
    "NomSparql.C35_node_path_violated",
    "NomSparql.C35_object_violated",
    "NomSparql.C35_nested_violated",
    "NomSparql.C35_where_subject_violated",
    "NomSparql.C35_where_object_violated",
    "NomSparql.C35_subject_partial"
   ],
   "note": "Violated: any non-empty collection or property list as object, nested, or as subject in WHERE gives an unrecoverable Failure (families over all texts). C35_subject_partial: as subject of a template, with simple nodes, of any size."
  },
  {
   "property": "C36",
   "status": "partial",
   "theorems": [
    "NomSparql.C36_one_sequence_violated",
    "NomSparql.C36_alternative_violated",
    "NomSparql.C36_elements_partial",
    "NomSparql.C36_slash_violated"
   ],
   "note": "Violated: on every input exactly one sequence is returned (C36_one_sequence_violated), so p1|p2 comes back as a sequence (C36_alternative_violated); the slash is rejected (C36_slash_violated). C36_elements_partial: elements are returned in order."
  },
  {
   "property": "C37",
   "status": "partial",
   "theorems": [
    "NomSparql.C37_template_partial",
    "NomSparql.C37_where_partial",
    "NomSparql.C37_colon_violated",
    "NomSparql.C37_template_colon_violated",
    "NomSparql.C37_where_colon_violated"
   ],
   "note": "Violated: 'a :local' is read as the name a:local (family), and 'a ?x' in WHERE is rejected (C33_violated). C37_template_partial, C37_where_partial: all other canonical objects."
  },
  {
   "property": "C38",
   "status": "partial",
   "theorems": [
    "NomSparql.C38_group_partial",
    "NomSparql.C38_unambiguous",
    "NomSparql.C38_space",
    "NomSparql.C38_space_violated",
    "NomSparql.C38_variable_violated",
    "NomSparql.C38_variable_rejected_violated"
   ],
   "note": "Every canonical group (Spec/CanonGroup: triples, unions, OPTIONAL, MINUS, GRAPH, SERVICE, FILTER, BIND, VALUES, sub-selects, nested) is read as the group written, and its text determines it. Violated: a part (not triples) needs white space before the closing brace, and in triples after such a part a leading ? is dropped, so variables there are rejected or read as something else."
  },
  {
   "property": "C39",
   "status": "proved",
   "theorems": [
    "NomSparql.C39_expression",
    "NomSparql.C39_unambiguous",
    "NomSparql.C39_written",
    "NomSparql.C39_or_and",
    "NomSparql.C39_and_or",
    "NomSparql.C39_rel_and"
   ],
   "note": "Every canonical expression is read with || below && below comparison; C39_written states for all inputs which operators were written."
  },
  {
   "property": "C40",
   "status": "partial",
   "theorems": [
    "NomSparql.C40_sums_partial",
    "NomSparql.C40_plain_violated",
    "NomSparql.C40_violated"
   ],
   "note": "Sums whose later summands are products are read as written. Violated: a sum a + b of plain operands is rejected in parentheses, for all canonical operands."
  },
  {
   "property": "C41",
   "status": "partial",
   "theorems": [
    "NomSparql.C41_products_partial",
    "NomSparql.C41_space",
    "NomSparql.C41_violated"
   ],
   "note": "Products with white space after each factor are read as written; C41_space (all inputs): white space follows every product. Violated: without that white space rejected."
  },
  {
   "property": "C42",
   "status": "partial",
   "theorems": [
    "NomSparql.C42_arguments_violated",
    "NomSparql.C42_list_violated",
    "NomSparql.C42_lists_empty_violated",
    "NomSparql.C42_arguments_empty_violated",
    "NomSparql.C42_in_violated",
    "NomSparql.C42_call_violated",
    "NomSparql.C42_function_violated",
    "NomSparql.C42_no_arguments_partial",
    "NomSparql.C42_no_elements_partial"
   ],
   "note": "Calls and IN lists without arguments are accepted. Violated for all inputs: no list with elements is ever returned; an argument makes the parse fail for good."
  },
  {
   "property": "C43",
   "status": "partial",
   "theorems": [
    "NomSparql.C43_calls_partial",
    "NomSparql.C43_unambiguous",
    "NomSparql.C43_written",
    "NomSparql.C43_rounding_violated",
    "NomSparql.C43_unreachable_violated",
    "NomSparql.C43_strlen_violated",
    "NomSparql.C43_contains_violated",
    "NomSparql.C43_unknown_violated",
    "NomSparql.C43_lists_violated",
    "NomSparql.C43_lists_empty_violated"
   ],
   "note": "Every canonical call is read as the function and arguments written; for all inputs the node belongs to the keyword written, per table callNames. Violated: ABS, CEIL, FLOOR, ROUND are returned as URI; STRLEN(a,b) as CONTAINS; STRLEN(e), CONTAINS, REPLACE, SUBSTR, CONCAT( and COALESCE( rejected."
  },
  {
   "property": "C44",
   "status": "partial",
   "theorems": [
    "NomSparql.C44_violated",
    "NomSparql.C44_doubled_partial"
   ],
   "note": "Violated: RAND(), NOW(), UUID(), STRUUID(), BNODE() are rejected as expressions whatever follows; accepted only with doubled parentheses (not BNODE)."
  },
  {
   "property": "C45",
   "status": "proved",
   "theorems": [
    "NomSparql.C45_aggregates",
    "NomSparql.C45_canonical",
    "NomSparql.C45_distinct"
   ],
   "note": "For all inputs accepted by aggregate; plus acceptance of canonical aggregates with and without DISTINCT."
  },
  {
   "property": "C46",
   "status": "partial",
   "theorems": [
    "NomSparql.C46_load",
    "NomSparql.C46_clear",
    "NomSparql.C46_drop",
    "NomSparql.C46_create",
    "NomSparql.C46_copy",
    "NomSparql.C46_statement_partial",
    "NomSparql.C46_default_violated"
   ],
   "note": "LOAD, CLEAR, DROP, CREATE, COPY proved for all graphs and flags. Violated: COPY with a bare prefixed name whose prefix begins with 'default' (family)."
  },
  {
   "property": "C47",
   "status": "partial",
   "theorems": [
    "NomSparql.C47_add_partial",
    "NomSparql.C47_move_partial",
    "NomSparql.C47_violated"
   ],
   "note": "Violated for every ADD and MOVE: update reads nothing (C47_violated, all continuations). add_stmt and move_stmt themselves are right (C47_add_partial, C47_move_partial) but not among the alternatives of update_stmt."
  },
  {
   "property": "C48",
   "status": "partial",
   "theorems": [
    "NomSparql.C48_insert_data_partial",
    "NomSparql.C48_delete_data_partial",
    "NomSparql.C48_delete_where_partial",
    "NomSparql.C48_space_violated",
    "NomSparql.C48_insert_violated",
    "NomSparql.C48_statement_partial"
   ],
   "note": "Proved for quad blocks of any size in the layout the code reads. Violated: white space after GRAPH g {..} followed by a dot, a triple or another graph (family, whole updates)."
  },
  {
   "property": "C49",
   "status": "partial",
   "theorems": [
    "NomSparql.C49_insert_using_partial",
    "NomSparql.C49_insert_violated",
    "NomSparql.C49_delete_violated",
    "NomSparql.C49_with_violated"
   ],
   "note": "Violated: INSERT..WHERE without USING, DELETE {..}, WITH (families over all continuations). C49_insert_using_partial: INSERT with at least one USING."
  },
  {
   "property": "C50",
   "status": "partial",
   "theorems": [
    "NomSparql.C50_chain_partial",
    "NomSparql.C50_patterns_partial",
    "NomSparql.C50_accepted",
    "NomSparql.C50_dropped_violated"
   ],
   "note": "C50_chain_partial: chains of any length of the statements the code reads, over any class of groups it reads; C50_accepted: converse for all inputs. Violated: ADD, MOVE (and everything after them) are dropped without error."
  },
  {
   "property": "C51",
   "status": "partial",
   "theorems": [
    "NomSparql.C51_single_quoted",
    "NomSparql.C51_double_quoted_partial",
    "NomSparql.C51_apostrophe_violated"
   ],
   "note": "Exact for single-quoted strings; for double-quoted ones exact except for the apostrophe, which the code wrongly excludes (C51_apostrophe_violated). Both functions have no callers in the crate."
  },
  {
   "property": "C52",
   "status": "proved",
   "theorems": [
    "NomSparql.C52_query",
    "NomSparql.C52_update",
    "NomSparql.C52_expression",
    "NomSparql.C52_group",
    "NomSparql.C52_prologue"
   ],
   "note": "One traversal of the whole tree (Spec/Filled) for queries, updates, expressions and groups, including prologue declarations and GROUP_CONCAT separators. For names the classes are outer bounds of the SPARQL ones (C21 has the exact classes)."
  },
  {
   "property": "C53",
   "status": "partial",
   "theorems": [
    "NomSparql.C53_query_violated",
    "NomSparql.C53_update_violated",
    "NomSparql.C53_nodes_violated",
    "NomSparql.C53_lists_violated",
    "NomSparql.C53_calls_violated",
    "NomSparql.C53_statements_violated",
    "NomSparql.C53_calls_partial",
    "NomSparql.C53_statements_partial"
   ],
   "note": "Violated for the constructors guarded by Leaves.dead: never returned at any depth of any accepted query or update. The remaining built-in calls and statements are returned."
  },
  {
   "property": "C54",
   "status": "partial",
   "theorems": [
    "NomSparql.C54_query_partial",
    "NomSparql.C54_unambiguous",
    "NomSparql.C54_values_partial"
   ],
   "note": "Proved for every canonical text of Spec/CanonQuery; the layouts that the crate rejects (C31 to C33, C38, C40 to C44) are excluded there. A VALUES block is attached or left unread as a whole; C29 tells which."
  },
  {
   "property": "C55",
   "status": "partial",
   "theorems": [
    "NomSparql.C55_never_error_violated",
    "NomSparql.C55_garbage_violated",
    "NomSparql.C55_empty_partial"
   ],
   "note": "Violated on every input: update never returns a recoverable error, and text without a keyword is accepted as the empty update and left unread. Partial: an empty result has read nothing."
  },
  {
   "property": "C56",
   "status": "proved",
   "theorems": [
    "NomSparql.C56_value",
    "NomSparql.C56_pair",
    "NomSparql.C56_case",
    "NomSparql.C56_encode"
   ],
   "note": "from_hex (with u8::from_str_radix, whose specification is in Spec/Hex.lean: at most one plus sign, digits, value below 256) characterised for all strings; total and injective up to letter case on what hex_primary accepts; surjective on bytes."
  },
  {
   "property": "C57",
   "status": "partial",
   "theorems": [
    "NomSparql.C57_condition_violated",
    "NomSparql.C57_clause_violated",
    "NomSparql.C57_ask_violated",
    "NomSparql.C57_partial",
    "NomSparql.C57_unnamed_partial"
   ],
   "note": "Violated for every expression that uses up the white space after it (anything but a sum without product at the end or IN ()): the condition is rejected, the clause ignored and left unread, also in whole queries. Proved for the remaining expressions and for conditions without AS."
  },
  {
   "property": "C58",
   "status": "partial",
   "theorems": [
    "NomSparql.C58_comma_violated",
    "NomSparql.C58_ask_comma_violated",
    "NomSparql.C58_misread_violated",
    "NomSparql.C58_semicolon_violated",
    "NomSparql.C58_ask_semicolon_violated",
    "NomSparql.C58_trailing_violated",
    "NomSparql.C58_lists_partial"
   ],
   "note": "Violated: a comma rejects the group, semicolons separate objects (texts that are no SPARQL are accepted, two-predicate lists rejected), trailing semicolons reject; each for whole families with arbitrary continuations. Proved: property lists with one object under the first predicate and further predicates starting with a, ! or ^."
  },
  {
   "property": "C59",
   "status": "partial",
   "theorems": [
    "NomSparql.C59_query_violated",
    "NomSparql.C59_update_violated",
    "NomSparql.C59_query_partial",
    "NomSparql.C59_update_partial"
   ],
   "note": "Violated whenever a declaration follows the white space: queries are rejected and updates left unread, whatever follows. Proved for every input without BASE or PREFIX at its start (queries: results equal including errors; updates: when a statement was read)."
  },
  {
   "property": "C60",
   "status": "partial",
   "theorems": [
    "NomSparql.C60_where_violated",
    "NomSparql.C60_select_where_violated",
    "NomSparql.C60_form_violated",
    "NomSparql.C60_group_violated",
    "NomSparql.C60_data_violated",
    "NomSparql.C60_where_partial"
   ],
   "note": "Violated for each keyword named, whatever follows the bracket. Proved for WHERE with white space and every canonical group; for the other keywords with white space see C38, C48, C54."
  },
  {
   "property": "C61",
   "status": "partial",
   "theorems": [
    "NomSparql.C61_end_violated",
    "NomSparql.C61_partial"
   ],
   "note": "Violated for every prologue and every list of targets at the end of input. Proved with white space after the targets."
  },
  {
   "property": "C62",
   "status": "partial",
   "theorems": [
    "NomSparql.C62_query_violated",
    "NomSparql.C62_ws_partial",
    "NomSparql.C62_iri_partial",
    "NomSparql.C62_var_partial",
    "NomSparql.C62_string_partial",
    "NomSparql.C62_group_partial"
   ],
   "note": "Violated by every accepted query with ORDER BY, GROUP BY or HAVING and no LIMIT, OFFSET or VALUES. Proved for white space, IRIs, variables and strings (all inputs) and canonical groups (before any text)."
  },
  {
   "property": "C63",
   "status": "partial",
   "theorems": [
    "NomSparql.C63_counted",
    "NomSparql.C63_count_expression",
    "NomSparql.C63_count_group",
    "NomSparql.C63_expression_violated",
    "NomSparql.C63_query_violated",
    "NomSparql.C63_polynomial_violated",
    "NomSparql.C63_bound_partial",
    "NomSparql.C63_strlen_partial",
    "NomSparql.C63_expression_partial",
    "NomSparql.C63_group_partial",
    "NomSparql.C63_linear_partial",
    "NomSparql.C63_few_partial",
    "NomSparql.C63_update_counted",
    "NomSparql.C63_count_update",
    "NomSparql.C63_update_violated",
    "NomSparql.C63_update_polynomial_violated",
    "NomSparql.C63_update_strlen_partial",
    "NomSparql.C63_update_few_partial",
    "NomSparql.C63_accepted_violated",
    "NomSparql.C63_update_accepted_violated",
    "NomSparql.C63_accepted_polynomial_violated"
   ],
   "note": "Violated: STRLEN with white space before its parenthesis parses its argument twice, so n nested STRLEN take at least 2^n calls of expression (C63_expression_violated, C63_query_violated); for every factor and degree a concrete query of linear size exceeds the polynomial (C63_polynomial_violated). Positive part: for every input, accepted or not, the calls are at most 8 * 2^s * length, where s counts the places in the text where STRLEN is followed by white space or a comment (C63_strlen_partial; for the two recursive functions C63_expression_partial, C63_group_partial). Hence the effort is linear, at most 8 * length, when there is no such place (C63_linear_partial), and linear with factor 8 * 2^n when there are at most n (C63_few_partial). C63_bound_partial is the earlier crude exponential bound. The count is attached to a copy of the model proved to return the same results (C63_counted). Work between calls, and inside triples, paths and collections, is not counted. Updates: the same for update requests, where calls of update count too (C63_update_counted, C63_count_update): exponential for nested STRLEN in the filter of a modification (C63_update_violated, C63_update_polynomial_violated), at most 8 * 2^s * length + 1 for every input (C63_update_strlen_partial, C63_update_few_partial). The texts of C63_query_violated and C63_update_violated are rejected in the end; C63_accepted_violated, C63_update_accepted_violated and C63_accepted_polynomial_violated give texts that are accepted and take as long (STRLEN with two arguments, which is read as CONTAINS)."
  },
  {
   "property": "C64",
   "status": "partial",
   "theorems": [
    "NomSparql.C64_parameter",
    "NomSparql.C64_expression_partial",
    "NomSparql.C64_group_partial",
    "NomSparql.C64_query_partial",
    "NomSparql.C64_update_statement_partial",
    "NomSparql.C64_update_partial",
    "NomSparql.C64_path_partial",
    "NomSparql.C64_node",
    "NomSparql.C64_node_path",
    "NomSparql.C64_expression_violated",
    "NomSparql.C64_group_violated",
    "NomSparql.C64_query_violated",
    "NomSparql.C64_path_violated",
    "NomSparql.C64_update_violated",
    "NomSparql.C64_nested_group",
    "NomSparql.C64_nested_query",
    "NomSparql.C64_nested_expression"
   ],
   "note": "Violated: for every n, n nested parentheses, n+1 nested braces (also in ASK), n parentheses in a path or n statements with semicolons need more than n open calls (C64_expression/group/query/path/update_violated), and such inputs are accepted in full without a budget (C64_nested_group/query/expression). What holds for all inputs: a budget above the number of opening brackets (plus one for a single expression) gives the result of the parser without budget, likewise the number of semicolons for update; graph_node and graph_node_path never call themselves. Missing: frames of the non-recursive functions in between and the actual stack size are not modelled."
  },
  {
   "property": "C65",
   "status": "partial",
   "theorems": [
    "NomSparql.C65_nearest_partial",
    "NomSparql.C65_error_partial",
    "NomSparql.C65_exact_partial",
    "NomSparql.C65_integer_partial",
    "NomSparql.C65_order_partial",
    "NomSparql.C65_same_partial",
    "NomSparql.C65_reflexive",
    "NomSparql.C65_distinct_partial",
    "NomSparql.C65_collapse_violated",
    "NomSparql.C65_infinite_violated",
    "NomSparql.C65_zero_violated"
   ],
   "note": "Violated: all integers between 2^t and 2^t+2^(t-53) (63<=t<=1023) give equal literals (C65_collapse_violated), all from 2^1024 on are infinity (C65_infinite_violated), all decimals of at most 2^-1075 equal 0.0 (C65_zero_violated). What holds for all literals: the stored f64 is the nearest one, ties to even (C65_nearest_partial), with the usual error bound; numbers that are f64s, in particular integers up to 2^53, are exact; order is never inverted; equal numbers give equal literals and == is reflexive (no NaN); numbers of up to 15 digits (at most 2^52 units of a common last place, at most 323 places) stay distinct. Trusted: f64::from_str rounds correctly."
  },
  {
   "property": "C66",
   "status": "proved",
   "theorems": [
    "NomSparql.C66_query",
    "NomSparql.C66_update",
    "NomSparql.C66_expression",
    "NomSparql.C66_group",
    "NomSparql.C66_marks_query",
    "NomSparql.C66_marks_update"
   ],
   "note": "All entry points, every depth. Texts of the leaves are those of Spec/Render (white space may stand between a sigil and a name, around the colon of a prefixed name). The marks theorems draw the consequence for inputs lacking a character."
  },
  {
   "property": "C67",
   "status": "partial",
   "theorems": [
    "NomSparql.C67_violated",
    "NomSparql.C67_query_partial",
    "NomSparql.C67_update_partial",
    "NomSparql.C67_group_partial",
    "NomSparql.C67_expression_partial",
    "NomSparql.C67_injective",
    "NomSparql.C67_update_injective",
    "NomSparql.C67_class_query",
    "NomSparql.C67_class_update",
    "NomSparql.C67_class_group",
    "NomSparql.C67_class_expression",
    "NomSparql.C67_reprint_partial",
    "NomSparql.C67_reprint_update_partial"
   ],
   "note": "Display for SparqlQuery is unimplemented!(): it panics on every query (C67_violated). A printer in Spec/Print that does what Display promises is given instead: for every tree of its class, nested to any depth, the parser reads the printed text as that tree (queries, updates, groups, bracketted expressions), so different trees have different texts. Its class is exactly the trees with a canonical text (C67_class_*), so parse, print, parse is the identity on all canonical texts (C67_reprint_*). Missing: trees outside the class, i.e. those the crate returns only for texts it misreads (C36, C40, C43, C44) or never returns (C35, C42, C47, C53)."
  },
  {
   "property": "C68",
   "status": "partial",
   "theorems": [
    "NomSparql.C68_query_partial",
    "NomSparql.C68_update_partial",
    "NomSparql.C68_parts_partial",
    "NomSparql.C68_whole_partial",
    "NomSparql.C68_squeeze_partial",
    "NomSparql.C68_prologue_partial",
    "NomSparql.C68_canonical_partial",
    "NomSparql.C68_violated"
   ],
   "note": "C68_query_partial, C68_update_partial and C68_parts_partial hold for all pairs of texts related by Relaid (gaps beginning with a blank, tab or line end replaced by other such gaps, with comments; strings unchanged). Not covered: texts with a # inside an IRI outside the prologue (C68_canonical_partial covers the canonical ones, C68_prologue_partial those in prologues). For these the claim is false in general: C68_violated gives, for every u, two texts that differ in one gap after the IRI <b:cd#u> and get different trees."
  },
  {
   "property": "C69",
   "status": "partial",
   "theorems": [
    "NomSparql.C69_query_partial",
    "NomSparql.C69_update_partial",
    "NomSparql.C69_parts_partial",
    "NomSparql.C69_strings_partial",
    "NomSparql.C69_rename_partial",
    "NomSparql.C69_tree_partial",
    "NomSparql.C69_tree_update_partial",
    "NomSparql.C69_function_partial",
    "NomSparql.C69_calm_partial",
    "NomSparql.C69_askString_partial",
    "NomSparql.C69_name_violated",
    "NomSparql.C69_prefix_violated",
    "NomSparql.C69_empty_violated"
   ],
   "note": "Proved: inputs that differ in contents of strings, names of variables and gaps get answers that differ in the same way (queries, updates, groups, triples, expressions; trees, remainders and places of errors), the new tree being determined by the old one when each string and name has one replacement. For names: in texts where no '?' after a closing bracket is followed by the text of a term. Violated: after '}' or ')' the crate takes '?' for punctuation and reads the name of a variable as a term (?true as a boolean, ?5 as a number, ?x :y as a prefixed name) or rejects the query; the empty string is rejected."
  },
  {
   "property": "C70",
   "status": "proved",
   "theorems": [
    "NomSparql.C70_query",
    "NomSparql.C70_update",
    "NomSparql.C70_expression",
    "NomSparql.C70_group",
    "NomSparql.C70_triples",
    "NomSparql.C70_path",
    "NomSparql.C70_query_scan",
    "NomSparql.C70_update_scan",
    "NomSparql.C70_expression_scan",
    "NomSparql.C70_unbalanced",
    "NomSparql.C70_query_count",
    "NomSparql.C70_update_count"
   ],
   "note": "What queries, updates, expressions, groups, triples and paths read is Nested (inductive, Spec/Brackets): brackets paired in order, strings, IRIs and comments complete. A reader with a stack that knows strings, comments and escapes ends with nothing open (texts without <, which opens an IRI or is an operator); unbalanced texts are not read to the end by either entry point; equal counts of opening and closing brackets. Nested leaves open whether < starts an IRI or is an operator."
  },
  {
   "property": "C71",
   "status": "partial",
   "theorems": [
    "NomSparql.C71_typed_violated",
    "NomSparql.C71_never_typed_violated",
    "NomSparql.C71_language_partial",
    "NomSparql.C71_simple_partial",
    "NomSparql.C71_simple_accepted"
   ],
   "note": "Violated: ^^xsd:string gives a simple literal, a typed one is never returned. Language-tagged and simple literals are proved."
  },
  {
   "property": "C72",
   "status": "proved",
   "theorems": [
    "NomSparql.C72_query",
    "NomSparql.C72_update",
    "NomSparql.C72_both",
    "NomSparql.C72_prologue"
   ],
   "note": "For all inputs: update on an accepted query returns that query's prologue and no statement, with the query unread; conversely an update with a statement is no query; no text is read to its end by both."
  },
  {
   "property": "C73",
   "status": "proved",
   "theorems": [
    "NomSparql.C73_iri",
    "NomSparql.C73_prefixed",
    "NomSparql.C73_literal",
    "NomSparql.C73_tagged",
    "NomSparql.C73_typed",
    "NomSparql.C73_limit_offset",
    "NomSparql.C73_offset_limit",
    "NomSparql.C73_limit",
    "NomSparql.C73_offset",
    "NomSparql.C73_injective"
   ],
   "note": "Each constructor equals the parser's result on every legal text with the same parts (IRIs in Latin-1, where C13 is exact); all are injective."
  },
  {
   "property": "C74",
   "status": "partial",
   "theorems": [
    "NomSparql.C74_content",
    "NomSparql.C74_echar_accepted",
    "NomSparql.C74_echar_text_violated",
    "NomSparql.C74_echar_backslash_violated",
    "NomSparql.C74_echar_partial",
    "NomSparql.C74_base",
    "NomSparql.C74_underscore",
    "NomSparql.C74_chars",
    "NomSparql.C74_one",
    "NomSparql.C74_one_underscore",
    "NomSparql.C74_blank"
   ],
   "note": "echar is violated: it accepts any text without a backslash as a whole and never an escaped backslash; its exact acceptance is C74_echar_accepted. The other functions are proved exactly; the class CodedBase is compared with SPARQL's in C21."
  },
  {
   "property": "C75",
   "status": "partial",
   "theorems": [
    "NomSparql.C75_counted",
    "NomSparql.C75_counted_query",
    "NomSparql.C75_count",
    "NomSparql.C75_double_violated",
    "NomSparql.C75_path_violated",
    "NomSparql.C75_query_violated",
    "NomSparql.C75_polynomial_violated",
    "NomSparql.C75_bound_partial",
    "NomSparql.C75_linear_partial",
    "NomSparql.C75_accepted_partial"
   ],
   "note": "Violated: path_sequence and path_alternative both have the separator |, so an unclosed parenthesis after a bar is read twice per level: a|(a|(… takes 2^(n+1)-1 calls, and no polynomial bounds the calls of the queries ask {?s a|(a|(…. Proved for all inputs: at most the number of parentheses doubled for each bar before a parenthesis, caret or comment; linear for paths that are read and do not end before a bar. Missing: the polynomial bound itself, which is false."
  },
  {
   "property": "C76",
   "status": "partial",
   "theorems": [
    "NomSparql.C76_data_violated",
    "NomSparql.C76_variable_violated",
    "NomSparql.C76_blank_violated",
    "NomSparql.C76_prefix_violated",
    "NomSparql.C76_bind_violated",
    "NomSparql.C76_aggregate_violated",
    "NomSparql.C76_star_violated",
    "NomSparql.C76_no_variable_partial",
    "NomSparql.C76_no_blank_partial"
   ],
   "note": "None of the restrictions is enforced: C76_data_violated (any quads in INSERT DATA, DELETE DATA, DELETE WHERE), C76_variable_violated, C76_blank_violated, C76_prefix_violated, C76_bind_violated, C76_aggregate_violated, C76_star_violated, each for all variables, blank nodes, prefixes, patterns, aggregates or groups in canonical form. Positive part: a text without ? and $ yields no variables, one without [ and _ no blank nodes."
  },
  {
   "property": "C77",
   "status": "partial",
   "theorems": [
    "NomSparql.C77_group_partial",
    "NomSparql.C77_quads_partial",
    "NomSparql.C77_group_verdict_partial",
    "NomSparql.C77_quads_verdict_partial",
    "NomSparql.C77_group_plain_partial",
    "NomSparql.C77_quads_plain_partial",
    "NomSparql.C77_group_angle_partial"
   ],
   "note": "Proved for blocks whose braces are balanced outside strings, comments, escapes and IRIs (Units), with three corollaries: texts without <, groups without # and apostrophes, and the verdict form. Missing: blocks where, next to an angle bracket, an IRI has a # not preceded by //, or a comment or apostrophe string contains >. No counterexample is known there."
  },
  {
   "property": "C78",
   "status": "partial",
   "theorems": [
    "NomSparql.C78_join_partial",
    "NomSparql.C78_join_plain_partial"
   ],
   "note": "Proved for a first request cut into units (as in C77), and with no such condition for first requests without <. Missing: the first requests excluded by Units. The premise that the first request ends with an operation is needed, shown by a case."
  },
  {
   "property": "C79",
   "status": "partial",
   "theorems": [
    "NomSparql.C79_query_partial",
    "NomSparql.C79_update_partial",
    "NomSparql.C79_data_partial",
    "NomSparql.C79_tokens_partial",
    "NomSparql.C79_query_liberties_partial",
    "NomSparql.C79_update_liberties_partial",
    "NomSparql.C79_query_careful_partial",
    "NomSparql.C79_update_careful_partial",
    "NomSparql.C79_data_careful_partial",
    "NomSparql.C79_delete_violated",
    "NomSparql.C79_update_violated",
    "NomSparql.C79_query_violated",
    "NomSparql.C79_dots_violated"
   ],
   "note": "The grammar (Spec/Ebnf) is a copy of the W3C productions [2]-[138] with the W3C terminals. Proved for all inputs: what sparql_query_stmt and update consume is generated by that grammar if the terminals are those of the crate, white space between words is optional, and seven kinds of additional productions are allowed (upper-case A, repeated dots, objects separated by semicolons, ? for the dot in a group, unsigned numbers after a summand, differently spelled calls, OFFSET/WHERE for DELETE/WITH); requests without MODIFY need only the first two. Each token of the crate is a W3C token or takes one of five liberties (foreign characters, gaps in names, a dot at the end, line ends in strings, comments in brackets). For each of the twelve liberties a condition on the text alone is given that excludes it (Spec/EbnfFree); texts that meet all of them and are consumed are SPARQL 1.1 (dialect sparqlWide, words may touch). Without them the claim is false: accepted texts that the strict grammar provably does not generate are given for a query with ?, a query with two dots, and for every accepted modification with a deletion. The conditions allow ordinary variables, prefixed names, IRIs with dots, strings on several-line texts, numbers outside parentheses, property lists with ; before a, ^ and !, LIMIT and OFFSET: realistic careful requests are given. Missing: the conditions are sufficient, not necessary (excluded without need: ; before an object-like text in the templates of CONSTRUCT, INSERT and DELETE, a blank before the colon of a name after a variable, numbers inside parentheses, a digit before a dot in a group, the letter A in a group)."
  },
  {
   "property": "C80",
   "status": "partial",
   "theorems": [
    "NomSparql.C80_manage_partial",
    "NomSparql.C80_query_partial",
    "NomSparql.C80_update_partial",
    "NomSparql.C80_addMove_violated",
    "NomSparql.C80_ask_violated",
    "NomSparql.C80_query_violated",
    "NomSparql.C80_update_violated"
   ],
   "note": "False as stated. Not accepted although the strict W3C grammar generates them: every ADD and MOVE operation that does not begin with white space, every ASK directly before a group (ask{...}), and the 29 requests of unreadQueries and unreadUpdates (legality by a recogniser proved sound, rejection by evaluation of the model). Proved: (1) every update request of the dialect plain (white space between all words, IRIs and names of the kinds of C13/C14) without braces, ADD, MOVE and names that are only a prefix where a graph is named, and not beginning with white space, is legal and read to its end; all numbers of operations and declarations. (2) every canonical query and update request (the texts of C50/C54: groups, paths, expressions, sub-selects of any depth) that is tidy (Spec/EbnfTidy: no dots in a row, no name or number ending with a dot, no comment inside () and [], no line ends beside strings, gaps after PREFIX and before VALUES) is legal and read to its end as the tree written. Missing: completeness for queries and for operations with braces from the grammar side, i.e. a description of the legal texts that have a canonical form not in terms of Spec/Canon*."
  },
  {
   "property": "C81",
   "status": "partial",
   "theorems": [
    "NomSparql.C81_query_failure_partial",
    "NomSparql.C81_update_failure_partial",
    "NomSparql.C81_group_failure_partial",
    "NomSparql.C81_expression_failure_partial",
    "NomSparql.C81_query_no_failure_partial",
    "NomSparql.C81_update_no_failure_partial",
    "NomSparql.C81_query_error_partial",
    "NomSparql.C81_position_violated",
    "NomSparql.C81_group_error_partial",
    "NomSparql.C81_nested_violated",
    "NomSparql.C81_depth_violated"
   ],
   "note": "Failures (unrecoverable) of queries, updates, groups and expressions are reported exactly behind an opening bracket that is not closed at once or an exponent without digits; texts without ( and [ and without e behind a digit or dot never fail. Recoverable errors of a group stand at its beginning or at a clause of its own nesting level (the text in between has balanced brackets). Recoverable errors of a query stand at the query form with kind Tag, or behind ASK, in no group but the outermost. Violated: a rejected SELECT, CONSTRUCT or DESCRIBE query always reports its first character, since alternatives keep the last error only, which is that of ASK; a mistake in a nested OPTIONAL or MINUS group is reported at the outermost clause, however deep it is. Update requests give no recoverable error at all (C55)."
  },
  {
   "property": "C82",
   "status": "proved",
   "theorems": [
    "NomSparql.C82_expression",
    "NomSparql.C82_group",
    "NomSparql.C82_query",
    "NomSparql.C82_update",
    "NomSparql.C82_expression_tight",
    "NomSparql.C82_update_tight",
    "NomSparql.C82_expression_least",
    "NomSparql.C82_update_least"
   ],
   "note": "Expressions: at most 12 units for every character consumed, and 12 is least (the character ':' before a bracket). Groups and queries: at most 12 per character, less 20 and 16. Update requests: at most 12 per character and 2 more, which the empty request needs. Units are values of the crate's types, places in vectors, characters of strings (Spec/Size); numbers and flags lie inside a counted value. Spare capacity of vectors (nom reserves four places) is a constant per vector and not counted."
  },
  {
   "property": "C83",
   "status": "partial",
   "theorems": [
    "NomSparql.C83_expression",
    "NomSparql.C83_group",
    "NomSparql.C83_query",
    "NomSparql.C83_statement",
    "NomSparql.C83_update_partial",
    "NomSparql.C83_expression_plain",
    "NomSparql.C83_query_plain",
    "NomSparql.C83_update_plain_partial",
    "NomSparql.C83_update_violated",
    "NomSparql.C83_update_no_bound",
    "NomSparql.C83_expression_least",
    "NomSparql.C83_expression_least_constant"
   ],
   "note": "Proved for all expressions, groups, queries and single update statements: nesting <= height <= 14 * nesting + constant, where the nesting is that of the text consumed; factor 14 and constant 14 are least for expressions. Violated for update requests: each statement after a semicolon is nested in the one before it, so requests without brackets give trees of any height; there the number of statements has to be added."
  },
  {
   "property": "C84",
   "status": "proved",
   "theorems": [
    "NomSparql.C84_query",
    "NomSparql.C84_update",
    "NomSparql.C84_expression",
    "NomSparql.C84_group",
    "NomSparql.C84_lawful_query",
    "NomSparql.C84_lawful_update",
    "NomSparql.C84_lawful_expression",
    "NomSparql.C84_lawful_group",
    "NomSparql.C84_exact_query",
    "NomSparql.C84_exact_update",
    "NomSparql.C84_exact_expression",
    "NomSparql.C84_exact_group"
   ],
   "note": "Derived PartialEq of all tree types modelled in Model/Equal. == holds iff the trees coincide after replacing each decimal by its f64 (units of 2^-1074, both zeros alike); hence an equivalence; exact for texts with integers of at most 18 digits. NaN cannot come from parsing; trees that callers build with a NaN themselves are outside the model."
  },
  {
   "property": "C85",
   "status": "proved",
   "theorems": [
    "NomSparql.C85_query",
    "NomSparql.C85_update",
    "NomSparql.C85_expression",
    "NomSparql.C85_group",
    "NomSparql.C85_query_plain",
    "NomSparql.C85_update_plain",
    "NomSparql.C85_comments_needed"
   ],
   "note": "For queries, update requests, expressions and groups: the number of times a quiet character (`$` or outside ASCII) is stored is at most its number in the consumed text, and equal if it is in no comment (PlainIn; C85_comments_needed shows a condition on comments is needed). A # inside an IRI or a string counts as a comment start for PlainIn, so the condition asks for more than necessary. ASCII letters and digits are not counted since keywords and numbers use them."
  },
  {
   "property": "C86",
   "status": "proved",
   "theorems": [
    "NomSparql.C86_query_shed",
    "NomSparql.C86_query",
    "NomSparql.C86_update_shed",
    "NomSparql.C86_update",
    "NomSparql.C86_expression_shed",
    "NomSparql.C86_expression",
    "NomSparql.C86_group_shed",
    "NomSparql.C86_group",
    "NomSparql.C86_same_query"
   ],
   "note": "For queries, update requests, expressions and groups: the quiet characters of the tree in the order of the syntax are those of the consumed text with some white space (comments included) taken out (C86_*_shed, no premise), and those of the whole consumed text if none of them stands behind a # on its line. C86_same_query: texts with the same tree have the same quiet characters in the same order. Nothing is said about ASCII letters and digits, which keywords and numbers use too."
  }
 ]
}
