{"id": "C01", "title": "Remainder is a suffix of the input", "statement": "Whenever a parser entry point (sparql_query_stmt, sparql_query, select/construct/describe/ask queries, update) returns Ok((rest, ast)), rest is a suffix of the input: no character of the input is skipped, duplicated, reordered or invented.", "quantifier": "every entry point, every input string", "why_tests_cant": "The input space (all Unicode strings, any length and nesting) is infinite; unit tests sample a handful of short strings.", "anchors": ["src/parser.rs:sparql_query_stmt", "src/parser.rs:sparql_query", "src/update.rs:update"]}
{"id": "C02", "title": "Reported error positions lie inside the input", "statement": "Whenever an entry point returns Err::Error((pos, kind)) or Err::Failure((pos, kind)), pos is a suffix of the input, so it can be mapped back to an offset in the caller's text.", "quantifier": "every entry point, every input string", "why_tests_cant": "The input space (all Unicode strings, any length and nesting) is infinite; unit tests sample a handful of short strings.", "anchors": ["src/parser.rs:sparql_query_stmt", "src/update.rs:update"]}
{"id": "C03", "title": "Parsing terminates on every input", "statement": "Every entry point returns on every input: there is no left recursion and no non-consuming loop; the nesting of recursive grammar calls is bounded by the length of the input plus one, and giving the recursion more budget never changes a result.", "quantifier": "every entry point, every input string", "why_tests_cant": "Non-termination on some unforeseen string can not be excluded by running finitely many strings.", "anchors": ["src/expression/mod.rs:expression", "src/graph.rs:group_graph_pattern", "src/graph.rs:graph_node", "src/path.rs:path_alternative", "src/path.rs:graph_node_path", "src/update.rs:update"]}
{"id": "C04", "title": "A successful query parse consumes input", "statement": "If sparql_query_stmt or sparql_query succeeds the remainder is strictly shorter than the input, so a caller that loops over concatenated queries always makes progress.", "quantifier": "every input string", "why_tests_cant": "The input space (all Unicode strings, any length and nesting) is infinite; unit tests sample a handful of short strings.", "anchors": ["src/parser.rs:sparql_query_stmt", "src/parser.rs:sparql_query"]}
{"id": "C05", "title": "No input makes the parser panic", "statement": "For every input string every entry point returns a Result instead of panicking (no slicing off a UTF-8 boundary, no unwrap failure).", "quantifier": "every entry point, every Unicode input string", "why_tests_cant": "A panic needs one particular non-ASCII string at one particular position; sampling does not exclude it.", "anchors": ["src/path.rs:path_mod", "src/parser.rs:sparql_query_stmt"]}
{"id": "C06", "title": "Complete-input parsers never answer Incomplete", "statement": "The parsers are built for complete input, so on every input the answer is Ok, Error or Failure, never Err::Incomplete.", "quantifier": "every entry point, every input string", "why_tests_cant": "The input space (all Unicode strings, any length and nesting) is infinite; unit tests sample a handful of short strings.", "anchors": ["src/arithmetic.rs:op_expression", "src/path.rs:path_mod"]}
{"id": "C07", "title": "Keywords are case-insensitive", "statement": "Re-spelling the leading keyword of a query, update statement or clause in any mixture of upper and lower case never changes the result: same remainder, same AST, same error.", "quantifier": "every keyword, every case variant of it, every following text", "why_tests_cant": "2^n spellings times infinitely many continuations.", "anchors": ["src/terminals.rs:preceded_tag1", "src/query/ask.rs:ask_query", "src/query/select.rs:select_clause", "src/query/describe.rs:describe_query", "src/query/construct.rs:construct_query", "src/literal.rs:boolean"]}
{"id": "C08", "title": "Query ASTs are faithful to the consumed text", "statement": "If sparql_query_stmt accepts and returns ast with remainder rest, then the consumed text (input minus rest) is a rendering of exactly that ast: every keyword, operator, name, literal, list element and clause of the ast is spelled at its place in the text, in order, and the text contains nothing else but optional whitespace and comments.", "quantifier": "every input string, the whole query grammar", "why_tests_cant": "The input space (all Unicode strings, any length and nesting) is infinite; unit tests sample a handful of short strings.", "anchors": ["src/parser.rs:sparql_query_stmt", "src/query/select.rs:select_query", "src/graph.rs:group_graph_pattern", "src/expression/mod.rs:expression"]}
{"id": "C09", "title": "Update ASTs are faithful to the consumed text", "statement": "If update accepts and returns ast with remainder rest, the consumed text is a rendering of exactly that ast (statements in order, each with its keywords, SILENT flag, graphs, quads and patterns).", "quantifier": "every input string, the whole update grammar", "why_tests_cant": "The input space (all Unicode strings, any length and nesting) is infinite; unit tests sample a handful of short strings.", "anchors": ["src/update.rs:update", "src/update.rs:update_stmt", "src/operations.rs:modify_stmt"]}
{"id": "C10", "title": "The query form follows the leading keyword", "statement": "sparql_query returns Select, Construct, Describe or Ask exactly according to the keyword the text starts with; no text starting with one form's keyword is ever returned as another form.", "quantifier": "every input string", "why_tests_cant": "The input space (all Unicode strings, any length and nesting) is infinite; unit tests sample a handful of short strings.", "anchors": ["src/parser.rs:sparql_query"]}
{"id": "C11", "title": "Whitespace and comments are interchangeable and skipped maximally", "statement": "Any sequence of blanks, tabs, line ends and #-comments between tokens is skipped as a whole, comments running to the end of the line, whatever their contents; skipping twice equals skipping once.", "quantifier": "every whitespace/comment sequence and every following text", "why_tests_cant": "The input space (all Unicode strings, any length and nesting) is infinite; unit tests sample a handful of short strings.", "anchors": ["src/terminals.rs:sp", "src/terminals.rs:sp1", "src/terminals.rs:new_line"]}
{"id": "C12", "title": "Variables keep their sigil and full name", "statement": "?name and $name parse to the variable with exactly that sigil and the longest legal name; an accepted variable always has a non-empty legal name.", "quantifier": "every name over the legal alphabet, every following text", "why_tests_cant": "The input space (all Unicode strings, any length and nesting) is infinite; unit tests sample a handful of short strings.", "anchors": ["src/var.rs:var", "src/var.rs:var_name"]}
{"id": "C13", "title": "IRI references are returned verbatim and exactly the legal ones are accepted", "statement": "<text> is accepted exactly when text has none of the characters SPARQL forbids in IRIREF (< > \" { } | ^ \\ ` and U+0000-U+0020), and the IRI returned is text itself.", "quantifier": "every text and continuation", "why_tests_cant": "The input space (all Unicode strings, any length and nesting) is infinite; unit tests sample a handful of short strings.", "anchors": ["src/terminals.rs:iri_ref", "src/terminals.rs:iri"]}
{"id": "C14", "title": "Prefixed names split into the written prefix and local part", "statement": "prefix:local parses to exactly that prefix and that local part, for every legal prefix and local name, and the statement-terminating dot after a name is not part of it.", "quantifier": "every prefix and local name, every following text", "why_tests_cant": "The input space (all Unicode strings, any length and nesting) is infinite; unit tests sample a handful of short strings.", "anchors": ["src/terminals.rs:prefixed_name", "src/terminals.rs:pname_ns", "src/terminals.rs:pname_ln", "src/terminals.rs:pn_local", "src/terminals.rs:pn_prefix"]}
{"id": "C15", "title": "String literals: exact acceptance and raw contents", "statement": "A quoted string is accepted exactly when its body consists of ordinary characters and legal backslash escapes up to the matching quote; the body is returned verbatim (escapes undecoded); the empty string is a legal literal and raw line ends are not.", "quantifier": "every body, both quote characters, every following text", "why_tests_cant": "The input space (all Unicode strings, any length and nesting) is infinite; unit tests sample a handful of short strings.", "anchors": ["src/terminals.rs:string_literal"]}
{"id": "C16", "title": "Literal tags and datatypes", "statement": "An RDF literal carries exactly the language tag or datatype IRI written after it, the tag being the longest match of @[a-zA-Z]+(-[a-zA-Z0-9]+)*; with neither, the descriptor is absent.", "quantifier": "every literal body, tag and datatype", "why_tests_cant": "The input space (all Unicode strings, any length and nesting) is infinite; unit tests sample a handful of short strings.", "anchors": ["src/terminals.rs:rdf_literal", "src/terminals.rs:language_tag"]}
{"id": "C17", "title": "Integer literals have their exact value", "statement": "An optionally signed digit string parses to an integer literal with exactly its decimal value; values that do not fit are never silently altered.", "quantifier": "every digit string, sign and continuation", "why_tests_cant": "Boundary behaviour at 2^63 for arbitrarily long digit strings (leading zeros, signs).", "anchors": ["src/literal.rs:sparql_int", "src/literal.rs:numeric_literal"]}
{"id": "C18", "title": "Decimals and doubles keep mantissa and exponent", "statement": "A decimal or double literal is returned as a double with exactly the written mantissa and exponent; a literal with '.' or an exponent is never returned as an integer.", "quantifier": "every mantissa/exponent text", "why_tests_cant": "The input space (all Unicode strings, any length and nesting) is infinite; unit tests sample a handful of short strings.", "anchors": ["src/literal.rs:sparql_decimal", "src/literal.rs:sparql_double", "src/literal.rs:exponent", "src/literal.rs:recognize_spaqrql_float"]}
{"id": "C19", "title": "Booleans", "statement": "true and false in any letter case, and nothing else, parse to the booleans true and false.", "quantifier": "every input string", "why_tests_cant": "The input space (all Unicode strings, any length and nesting) is infinite; unit tests sample a handful of short strings.", "anchors": ["src/literal.rs:boolean"]}
{"id": "C20", "title": "Blank nodes", "statement": "_:label keeps the longest legal label; [] with any whitespace/comments inside is the anonymous node; '[' followed by anything else is a hard failure, never a silent success.", "quantifier": "every label and bracket content", "why_tests_cant": "The input space (all Unicode strings, any length and nesting) is infinite; unit tests sample a handful of short strings.", "anchors": ["src/graph.rs:blank_node", "src/terminals.rs:anon", "src/terminals.rs:pn_chars_tail"]}
{"id": "C21", "title": "Name character classes match SPARQL 1.1", "statement": "A character is accepted at the start of a name exactly when it is in PN_CHARS_BASE of SPARQL 1.1.", "quantifier": "every Unicode scalar value (1,112,064 of them) and their use in names", "why_tests_cant": "The class is a predicate over the whole of Unicode; tests look at six characters.", "anchors": ["src/terminals.rs:is_pn_chars_base", "src/terminals.rs:is_unicode"]}
{"id": "C22", "title": "String argument compatibility follows its documentation", "statement": "StringLiteral::compatible_arg(a, b) holds exactly in the documented cases: both simple/xsd:string; same language tag; or first language-tagged and second simple/xsd:string.", "quantifier": "every pair of string literals", "why_tests_cant": "Strings and tags range over an infinite set.", "anchors": ["src/literal.rs:StringLiteral::compatible_arg"]}
{"id": "C23", "title": "Sign and path-modifier text conversions are inverse", "statement": "Parsing the text form of a Sign gives it back, Display equals as_ref, the empty string is POS, and every other text is rejected; PathMod::from_str accepts exactly ?, *, + with distinct results.", "quantifier": "every string", "why_tests_cant": "Rejection must hold for every other string.", "anchors": ["src/arithmetic.rs:Sign", "src/path.rs:PathMod"]}
{"id": "C24", "title": "Prologue declarations are all kept, in order", "statement": "For every sequence of BASE and PREFIX declarations, the prologue returned lists exactly these declarations in source order with their prefix and IRI.", "quantifier": "every list of declarations, any length", "why_tests_cant": "The input space (all Unicode strings, any length and nesting) is infinite; unit tests sample a handful of short strings.", "anchors": ["src/terminals.rs:prologue", "src/terminals.rs:base_decl", "src/terminals.rs:prefix_decl"]}
{"id": "C25", "title": "Dataset clauses", "statement": "FROM g gives a default graph, FROM NAMED g a named graph, likewise for USING; every sequence of dataset clauses is returned in order.", "quantifier": "every IRI, every sequence of clauses", "why_tests_cant": "The input space (all Unicode strings, any length and nesting) is infinite; unit tests sample a handful of short strings.", "anchors": ["src/data.rs:data_set_clause", "src/terminals.rs:default_or_named_iri", "src/clauses.rs:using_clause"]}
{"id": "C26", "title": "LIMIT/OFFSET values are exact", "statement": "LIMIT n / OFFSET m in either order are returned with exactly the written numbers; numbers above 2^64-1 are rejected, never wrapped.", "quantifier": "every digit string, both orders", "why_tests_cant": "Boundary behaviour at 2^64 for arbitrarily long digit strings.", "anchors": ["src/clauses.rs:limit_offset_clause", "src/clauses.rs:int_clause"]}
{"id": "C27", "title": "VALUES data is kept in order", "statement": "For every inline data block the variables, rows and cell values are returned exactly as written, in order, UNDEF included.", "quantifier": "every data block of any size", "why_tests_cant": "The input space (all Unicode strings, any length and nesting) is infinite; unit tests sample a handful of short strings.", "anchors": ["src/data.rs:datablock", "src/data.rs:inline_data_full", "src/data.rs:inline_data_one_var", "src/data.rs:datablock_value"]}
{"id": "C28", "title": "VALUES rows have one value per variable", "statement": "In an accepted full data block every row has as many values as there are variables.", "quantifier": "every input string", "why_tests_cant": "The input space (all Unicode strings, any length and nesting) is infinite; unit tests sample a handful of short strings.", "anchors": ["src/data.rs:inline_data_full"]}
{"id": "C29", "title": "A trailing VALUES clause is attached to the query", "statement": "A VALUES block after a query is returned in the statement's values field.", "quantifier": "every query and data block", "why_tests_cant": "The input space (all Unicode strings, any length and nesting) is infinite; unit tests sample a handful of short strings.", "anchors": ["src/parser.rs:sparql_query_stmt"]}
{"id": "C30", "title": "Clause lists are never empty", "statement": "In every accepted query each GROUP BY, HAVING and ORDER BY clause, each union, expression, conjunction, projection list, path alternative, path sequence, property list and object list present in the AST has at least one element.", "quantifier": "every input string", "why_tests_cant": "The input space (all Unicode strings, any length and nesting) is infinite; unit tests sample a handful of short strings.", "anchors": ["src/clauses.rs:order_clause", "src/clauses.rs:having_clause", "src/group.rs:group_clause", "src/graph.rs:group_or_union_graph_pattern", "src/expression/mod.rs:expression"]}
{"id": "C31", "title": "A query may end right after its last clause", "statement": "A solution modifier that is complete is accepted even when nothing (not even whitespace) follows it.", "quantifier": "every ORDER BY / GROUP BY / HAVING clause", "why_tests_cant": "The input space (all Unicode strings, any length and nesting) is infinite; unit tests sample a handful of short strings.", "anchors": ["src/clauses.rs:order_clause", "src/clauses.rs:having_clause", "src/group.rs:group_clause"]}
{"id": "C32", "title": "SELECT projects every listed variable", "statement": "SELECT v1 v2 ... vn WHERE {...} with whitespace-separated variables is accepted and returns exactly these variables in order.", "quantifier": "every list of variables", "why_tests_cant": "The input space (all Unicode strings, any length and nesting) is infinite; unit tests sample a handful of short strings.", "anchors": ["src/query/select.rs:select_vars", "src/query/select.rs:select_clause", "src/query/select.rs:select_query"]}
{"id": "C33", "title": "Basic triple patterns are accepted in WHERE", "statement": "A triple pattern subject predicate object with an IRI predicate and a variable object is accepted in a group graph pattern and returned with that subject, predicate and object.", "quantifier": "every subject, IRI predicate and object variable", "why_tests_cant": "The input space (all Unicode strings, any length and nesting) is infinite; unit tests sample a handful of short strings.", "anchors": ["src/path.rs:triples_same_subject_path", "src/path.rs:path_elt", "src/path.rs:path_mod"]}
{"id": "C34", "title": "Triples templates keep subjects, predicates and objects in order", "statement": "In CONSTRUCT templates and quad data, 'subject verb objects ; verb objects .' sequences are returned with exactly the written subjects, verbs and object lists, in order.", "quantifier": "every template of any size", "why_tests_cant": "The input space (all Unicode strings, any length and nesting) is infinite; unit tests sample a handful of short strings.", "anchors": ["src/triple.rs:triples_template", "src/triple.rs:property_list_not_empty", "src/triple.rs:object_list", "src/triple.rs:triples_same_subject"]}
{"id": "C35", "title": "Collections and blank-node property lists nest", "statement": "A collection or a bracketed property list is accepted wherever a graph node is, in particular inside another collection, as an object, and as subject of a WHERE triple.", "quantifier": "every collection / property list", "why_tests_cant": "The input space (all Unicode strings, any length and nesting) is infinite; unit tests sample a handful of short strings.", "anchors": ["src/graph.rs:graph_node", "src/terminals.rs:nil", "src/terminals.rs:anon", "src/path.rs:triples_same_subject_path"]}
{"id": "C36", "title": "Property path operators keep their meaning", "statement": "p1/p2 is a sequence, p1|p2 an alternative; both operands are returned, in order, under the corresponding node.", "quantifier": "every pair or list of path elements", "why_tests_cant": "The input space (all Unicode strings, any length and nesting) is infinite; unit tests sample a handful of short strings.", "anchors": ["src/path.rs:path_alternative", "src/path.rs:path_sequence"]}
{"id": "C37", "title": "The keyword a is rdf:type", "statement": "In predicate position the lower-case keyword a, followed by whitespace and an object, is returned as rdf:type, whatever the object is.", "quantifier": "every object", "why_tests_cant": "The input space (all Unicode strings, any length and nesting) is infinite; unit tests sample a handful of short strings.", "anchors": ["src/var.rs:verb", "src/path.rs:path_primary", "src/terminals.rs:pname_ns"]}
{"id": "C38", "title": "Groups, unions and graph patterns keep their structure", "statement": "{A} UNION {B} ..., OPTIONAL, MINUS, GRAPH, SERVICE [SILENT], FILTER, BIND and VALUES inside a group are returned as the corresponding nodes with their operands in source order.", "quantifier": "every group graph pattern of any depth", "why_tests_cant": "The input space (all Unicode strings, any length and nesting) is infinite; unit tests sample a handful of short strings.", "anchors": ["src/graph.rs:graph_pattern_not_triples", "src/graph.rs:group_graph_pattern_sub", "src/graph.rs:service_graph_pattern"]}
{"id": "C39", "title": "Boolean and relational operators bind as in SPARQL", "statement": "|| binds weaker than &&, which binds weaker than the relational operators; operand order is kept and each operator is returned as itself.", "quantifier": "every expression built from these operators", "why_tests_cant": "The input space (all Unicode strings, any length and nesting) is infinite; unit tests sample a handful of short strings.", "anchors": ["src/expression/mod.rs:expression", "src/arithmetic.rs:conditional_and_expression", "src/arithmetic.rs:relational_expression", "src/arithmetic.rs:op_expression"]}
{"id": "C40", "title": "Sums and differences are accepted", "statement": "a + b and a - b with plain operands are accepted and returned as a sum / difference.", "quantifier": "every pair of operands", "why_tests_cant": "The input space (all Unicode strings, any length and nesting) is infinite; unit tests sample a handful of short strings.", "anchors": ["src/arithmetic.rs:additive_expression", "src/arithmetic.rs:add_expression"]}
{"id": "C41", "title": "Products and quotients", "statement": "a * b / c ... is returned as lhs with the factors in order, each with its operator.", "quantifier": "every chain of factors", "why_tests_cant": "The input space (all Unicode strings, any length and nesting) is infinite; unit tests sample a handful of short strings.", "anchors": ["src/arithmetic.rs:multiplicative_expression", "src/arithmetic.rs:mult_expression", "src/arithmetic.rs:unary_expression"]}
{"id": "C42", "title": "Argument lists and IN lists", "statement": "A call iri(e1, ..., en) and a test x IN (e1, ..., en) with n >= 1 are accepted with all arguments in order.", "quantifier": "every argument list", "why_tests_cant": "The input space (all Unicode strings, any length and nesting) is infinite; unit tests sample a handful of short strings.", "anchors": ["src/call.rs:arg_list", "src/expression/mod.rs:expression_list", "src/terminals.rs:nil"]}
{"id": "C43", "title": "Built-in calls are returned as the function that was written", "statement": "For every built-in keyword, KEYWORD(args) is returned as the AST node of that function, with these arguments in order.", "quantifier": "every built-in, every argument expression", "why_tests_cant": "The input space (all Unicode strings, any length and nesting) is infinite; unit tests sample a handful of short strings.", "anchors": ["src/call.rs:built_in_call", "src/call.rs:built_in_call_1", "src/call.rs:built_in_call_2"]}
{"id": "C44", "title": "Argument-less built-ins", "statement": "RAND(), NOW(), UUID(), STRUUID() and BNODE() are accepted.", "quantifier": "every continuation", "why_tests_cant": "The input space (all Unicode strings, any length and nesting) is infinite; unit tests sample a handful of short strings.", "anchors": ["src/call.rs:built_in_call_1", "src/call.rs:built_in_call_2", "src/terminals.rs:nil"]}
{"id": "C45", "title": "Aggregates and DISTINCT", "statement": "An aggregate's is_distinct() is true exactly when the keyword DISTINCT was written in it; the aggregate returned is the one written.", "quantifier": "every aggregate expression", "why_tests_cant": "The input space (all Unicode strings, any length and nesting) is infinite; unit tests sample a handful of short strings.", "anchors": ["src/aggregate.rs:aggregate", "src/aggregate.rs:Aggregate::is_distinct", "src/aggregate.rs:count", "src/aggregate.rs:group_concat"]}
{"id": "C46", "title": "Graph management statements round-trip", "statement": "LOAD, CLEAR, DROP, CREATE and COPY with or without SILENT are returned with exactly the graphs written (source and target not swapped) and the silent flag set exactly when SILENT was written.", "quantifier": "every graph IRI and flag combination", "why_tests_cant": "The input space (all Unicode strings, any length and nesting) is infinite; unit tests sample a handful of short strings.", "anchors": ["src/operations.rs:load_stmt", "src/operations.rs:clear_stmt", "src/operations.rs:drop_stmt", "src/operations.rs:create_stmt", "src/operations.rs:copy_stmt", "src/operations.rs:silent_from_to", "src/graph.rs:graph_ref_all"]}
{"id": "C47", "title": "ADD and MOVE are accepted updates", "statement": "ADD g TO h and MOVE g TO h are accepted by update as the corresponding statements.", "quantifier": "every pair of graphs", "why_tests_cant": "The input space (all Unicode strings, any length and nesting) is infinite; unit tests sample a handful of short strings.", "anchors": ["src/update.rs:update_stmt", "src/operations.rs:add_stmt", "src/operations.rs:move_stmt"]}
{"id": "C48", "title": "Data updates keep their quads", "statement": "INSERT DATA, DELETE DATA and DELETE WHERE return the corresponding statement with exactly the quads written, in order, per graph.", "quantifier": "every quad block", "why_tests_cant": "The input space (all Unicode strings, any length and nesting) is infinite; unit tests sample a handful of short strings.", "anchors": ["src/operations.rs:insert_data", "src/operations.rs:delete_data", "src/operations.rs:delete_where_data", "src/quads.rs:quads"]}
{"id": "C49", "title": "DELETE/INSERT ... WHERE modifications are accepted", "statement": "[WITH g] DELETE {..} INSERT {..} [USING ..] WHERE {..} is accepted and returned with these parts; USING is optional.", "quantifier": "every modification request", "why_tests_cant": "The input space (all Unicode strings, any length and nesting) is infinite; unit tests sample a handful of short strings.", "anchors": ["src/operations.rs:modify_stmt", "src/operations.rs:delete_insert", "src/clauses.rs:delete_clause"]}
{"id": "C50", "title": "Update requests keep all statements in order", "statement": "u1 ; u2 ; ... ; un is returned as the chain of exactly these statements, each with its own prologue, in order.", "quantifier": "every sequence of statements", "why_tests_cant": "The input space (all Unicode strings, any length and nesting) is infinite; unit tests sample a handful of short strings.", "anchors": ["src/update.rs:update"]}
{"id": "C51", "title": "Characters excluded from short strings", "statement": "is_illegal_char_lit_1 holds exactly of the characters STRING_LITERAL1 of SPARQL 1.1 excludes (' \\ LF CR), is_illegal_char_lit_2 exactly of those STRING_LITERAL2 excludes (\" \\ LF CR).", "quantifier": "every character", "why_tests_cant": "The input space (all Unicode strings, any length and nesting) is infinite; unit tests sample a handful of short strings.", "anchors": ["src/terminals.rs:is_illegal_char_lit_1", "src/terminals.rs:is_illegal_char_lit_2"]}
{"id": "C52", "title": "Names, literals and numbers in returned trees are well-formed", "statement": "Every variable, IRI, prefixed name, literal, language tag, number, blank node label and LIMIT/OFFSET value anywhere in the tree of an accepted query, update, expression or group, and every prologue declaration, is one the grammar admits: legal characters, values that fit their machine types.", "quantifier": "every input string, every depth of the tree", "why_tests_cant": "The input space (all Unicode strings, any length and nesting) is infinite; unit tests sample a handful of short strings.", "anchors": ["src/parser.rs:sparql_query_stmt", "src/update.rs:update", "src/terminals.rs:var", "src/expression/iri.rs:iri", "src/literal.rs:rdf_literal", "src/literal.rs:numeric_literal"]}
{"id": "C53", "title": "Every kind of node can be returned", "statement": "Every variant of the AST is returned for some text: collections and property lists as nodes, argument lists, IN lists, all built-in calls and all update statements.", "quantifier": "every AST variant, every input string", "why_tests_cant": "The input space (all Unicode strings, any length and nesting) is infinite; unit tests sample a handful of short strings.", "anchors": ["src/graph.rs:graph_node", "src/expression/mod.rs:expression_list", "src/call.rs:built_in_call", "src/update.rs:update_stmt"]}
{"id": "C54", "title": "Whole queries are returned as written", "statement": "A query written in canonical form - any form, prologue, dataset clauses, nested groups, expressions, modifiers and a trailing VALUES block - is read to its end and returned as exactly the tree it spells; a canonical text spells one tree only.", "quantifier": "every canonical query of any size and nesting", "why_tests_cant": "The input space (all Unicode strings, any length and nesting) is infinite; unit tests sample a handful of short strings.", "anchors": ["src/parser.rs:sparql_query_stmt", "src/parser.rs:sparql_query"]}
{"id": "C55", "title": "A malformed update is an error", "statement": "Text that is not an update request is reported as an error by update.", "quantifier": "every input string", "why_tests_cant": "The input space (all Unicode strings, any length and nesting) is infinite; unit tests sample a handful of short strings.", "anchors": ["src/update.rs:update"]}
{"id": "C56", "title": "Percent-encoded bytes decode to their value", "statement": "from_hex returns exactly the byte two hexadecimal digits spell, for either letter case; on what hex_primary accepts it never fails, two accepted pairs give the same byte only when they differ in letter case, and every byte has a pair.", "quantifier": "every string, every byte", "why_tests_cant": "The input space (all Unicode strings, any length and nesting) is infinite; unit tests sample a handful of short strings.", "anchors": ["src/terminals.rs:from_hex", "src/terminals.rs:hex_primary"]}
{"id": "C57", "title": "GROUP BY keeps a named expression", "statement": "A GROUP BY condition `(expression AS ?v)` is returned with that expression and that variable, whatever the expression is.", "quantifier": "every canonical expression, of any size and nesting", "why_tests_cant": "The input space (all Unicode strings, any length and nesting) is infinite; unit tests sample a handful of short strings.", "anchors": ["src/group.rs:group_condition", "src/clauses.rs:solution_modifier"]}
{"id": "C58", "title": "Property and object lists in WHERE are read as SPARQL defines them", "statement": "In a group a comma separates objects of one predicate and a semicolon separates predicates; trailing semicolons are allowed; every object and predicate is returned in its place.", "quantifier": "all lists of patterns, predicates and objects, of any length", "why_tests_cant": "The input space (all Unicode strings, any length and nesting) is infinite; unit tests sample a handful of short strings.", "anchors": ["src/path.rs:object_list_path", "src/path.rs:property_list_path_not_empty"]}
{"id": "C59", "title": "White space before a request changes nothing", "statement": "Leading white space or comments do not change the result of sparql_query_stmt or update.", "quantifier": "every input string", "why_tests_cant": "The input space (all Unicode strings, any length and nesting) is infinite; unit tests sample a handful of short strings.", "anchors": ["src/parser.rs:sparql_query_stmt", "src/update.rs:update", "src/terminals.rs:prologue"]}
{"id": "C60", "title": "White space between a keyword and a bracket is optional", "statement": "WHERE{, ASK{, CONSTRUCT{, OPTIONAL{, MINUS{, FILTER(, BIND(, INSERT DATA{ are read like the same texts with white space before the bracket.", "quantifier": "every input string with such a keyword", "why_tests_cant": "The input space (all Unicode strings, any length and nesting) is infinite; unit tests sample a handful of short strings.", "anchors": ["src/terminals.rs:preceded_tag1", "src/clauses.rs:where_clause"]}
{"id": "C61", "title": "A DESCRIBE query may end after its targets", "statement": "DESCRIBE with a list of variables and IRIs, or *, and nothing after it is accepted with these targets.", "quantifier": "every prologue and every list of targets", "why_tests_cant": "The input space (all Unicode strings, any length and nesting) is infinite; unit tests sample a handful of short strings.", "anchors": ["src/query/describe.rs:describe_query"]}
{"id": "C62", "title": "A query cut where reading stopped gives the same tree", "statement": "When a parser accepts a prefix of the input, parsing that prefix alone returns the same tree with nothing left.", "quantifier": "every accepted input", "why_tests_cant": "The input space (all Unicode strings, any length and nesting) is infinite; unit tests sample a handful of short strings.", "anchors": ["src/parser.rs:sparql_query_stmt", "src/terminals.rs:iri_ref"]}
{"id": "C63", "title": "The effort of parsing is polynomial in the length of the query", "statement": "The number of calls of the recursive parser functions expression and group_graph_pattern while a query is parsed is bounded by a polynomial in the length of the query.", "quantifier": "every input string", "why_tests_cant": "A bound for all inputs cannot be measured on samples: the bad inputs are nested and any test suite stops at small depth.", "anchors": ["src/call.rs:built_in_call_1", "src/expression/mod.rs:expression", "src/graph.rs:group_graph_pattern"]}
{"id": "C64", "title": "The recursion depth is bounded for all inputs", "statement": "There is a depth n such that no input makes the parser have more than n calls of expression and group_graph_pattern (or of path_alternative, or of update) open at the same time, so that no input can exhaust the stack.", "quantifier": "every input string", "why_tests_cant": "A bound on the depth for all inputs cannot be read off samples; tests nest a few levels only and a stack overflow aborts the process instead of returning an error.", "anchors": ["src/expression/mod.rs:expression", "src/graph.rs:group_graph_pattern", "src/path.rs:path_alternative", "src/update.rs:update"]}
{"id": "C65", "title": "Number literals keep their value", "statement": "The number stored for a decimal or double mantissa, or for an integer literal of any size, equals the number written; two literals with different numbers are different (for ==) in the tree, and == is an equivalence on returned literals.", "quantifier": "every accepted numeric literal, any number of digits", "why_tests_cant": "Whether every digit string is stored faithfully concerns infinitely many numbers; rounding shows only at particular lengths and tie positions.", "anchors": ["src/literal.rs:sparql_decimal", "src/literal.rs:NumericLiteral"]}
{"id": "C66", "title": "Nothing in a returned tree is invented", "statement": "Every variable, IRI, prefixed name, literal, number, blank node label, LIMIT/OFFSET value, separator and declaration anywhere in the tree of an accepted query, update, expression or group is written literally, as one contiguous piece, in the input; so a text without the mark of a kind of leaf (? or $, < or :, a quote, a digit, _ or [) yields a tree without that kind.", "quantifier": "every input string, every leaf at every depth", "why_tests_cant": "A test compares one tree with one text; that no leaf is ever made up, moved in from another place or altered concerns all inputs and every depth of nesting, and is what callers rely on who check a query for forbidden names before running it.", "anchors": ["src/parser.rs:sparql_query_stmt", "src/update.rs:update", "src/expression/mod.rs:expression", "src/graph.rs:group_graph_pattern"]}
{"id": "C67", "title": "Printing a query and parsing the text gives the query back", "statement": "SparqlQuery implements Display: to_string() of every query returns a text, and parsing that text gives the same query; different queries have different texts.", "quantifier": "every query tree, nested to any depth", "why_tests_cant": "Round trips of samples say nothing about trees of other shapes or depths; quoting, spacing and operator nesting go wrong only for particular combinations, and a printer has to be right for all of them.", "anchors": ["src/query/mod.rs:Display for SparqlQuery", "src/parser.rs:sparql_query_stmt", "src/update.rs:update"]}
{"id": "C68", "title": "Layout does not change what a request means", "statement": "Replacing the white space between two tokens by other white space (blanks, tabs, line ends, comments) changes neither the tree of a query or update nor whether it is accepted; an error stays the same error at the same token.", "quantifier": "every input string, every way to lay it out differently", "why_tests_cant": "Tests parse a few texts in one or two layouts; every parser chooses for itself where it allows white space and how it looks at the next character, so a layout that changes the tree shows up only for particular combinations of tokens, of which there is no end.", "anchors": ["src/terminals.rs:sp", "src/terminals.rs:sp1", "src/parser.rs:sparql_query_stmt", "src/update.rs:update", "src/arithmetic.rs:op_expression"]}
{"id": "C69", "title": "Contents of strings and names of variables are opaque", "statement": "Replacing the contents of strings by other (properly escaped) contents and the names of variables by other names changes neither whether a query or update is accepted nor its tree, except for these strings and names themselves: a value put into a string cannot inject query text, and renaming variables renames them in the tree and nothing else.", "quantifier": "every input string, every replacement of string contents and variable names in it", "why_tests_cant": "Tests parse a few strings and a few names; that no content or name, in any place of any query, is looked at by another parser (as a keyword, number, prefix or operator) is a statement about infinitely many replacements in infinitely many texts.", "anchors": ["src/terminals.rs:rdf_literal", "src/terminals.rs:string_literal", "src/var.rs:var", "src/graph.rs:group_graph_pattern_and_triples", "src/parser.rs:sparql_query_stmt", "src/update.rs:update"]}
{"id": "C70", "title": "The brackets of an accepted request are balanced", "statement": "In the text of a query or update that is accepted, every bracket outside strings, IRIs, comments and escapes is closed by its partner in the right order, and every string, IRI and comment is complete; a request with a missing, surplus or mismatched bracket, or cut off inside a string, is never read to the end.", "quantifier": "every input string, nested to any depth", "why_tests_cant": "Tests try a few nestings and a few missing brackets; the parser reads brackets in two dozen places, each on its own, and one closing bracket that is optional or of the wrong kind shows up only in a text that nests just there.", "anchors": ["src/terminals.rs:bracketted", "src/triple.rs:blank_node_property_list", "src/path.rs:path_primary", "src/graph.rs:group_graph_pattern", "src/parser.rs:sparql_query_stmt", "src/update.rs:update"]}
{"id": "C71", "title": "String arguments keep their kind", "statement": "string_literal_arg returns a simple literal for a quoted string alone, a language-tagged one (with the longest tag) where @tag follows, and a typed one where ^^xsd:string follows.", "quantifier": "every string body, quote, tag and following text", "why_tests_cant": "The only test has one plain string; bodies, tags and following texts are unbounded, and the kind decides which arguments are compatible (C22).", "anchors": ["src/literal.rs:string_literal_arg", "src/literal.rs:StringLiteral"]}
{"id": "C72", "title": "No text is both a query and an update", "statement": "A text that is accepted as a query contains no update statement: update reads only its declarations, the same ones, and leaves the rest; a text that starts with an update statement is not accepted as a query.", "quantifier": "every input string", "why_tests_cant": "A caller that tries one entry point after the other relies on this for every text; tests give each entry point only texts meant for it.", "anchors": ["src/parser.rs:sparql_query_stmt", "src/update.rs:update", "src/update.rs:update_stmt"]}
{"id": "C73", "title": "Public constructors build the nodes that the parser returns", "statement": "Iri::iri_ref, Iri::prefixed_name, RdfLiteral::new, RdfLiteral::literal, LimitOffsetClause::limit_offset and offset_limit build, from the parts of a text, exactly the node that parsing that text returns; different parts give different nodes.", "quantifier": "all arguments and all texts with these parts", "why_tests_cant": "Users compare parsed trees with trees they build; two parts of the same type exchanged in a constructor go unnoticed in tests with equal or missing parts.", "anchors": ["src/expression/mod.rs:Iri::iri_ref", "src/node.rs:RdfLiteral::new", "src/clauses.rs:LimitOffsetClause::limit_offset"]}
{"id": "C74", "title": "Escapes, string contents and runs of name characters", "statement": "string_content reads exactly the contents up to the next quote; echar reads one escape (a backslash and one of t b n r f \\ \" '); pn_chars_base1, pn_chars_u1, pn_chars1 read the longest run of their characters and the _one variants exactly one; is_sp holds exactly for the characters that are white space by themselves.", "quantifier": "every input string", "why_tests_cant": "Whether a run is longest, and which of all Unicode characters stop it, is a statement about all inputs; the existing tests have none for these functions.", "anchors": ["src/terminals.rs:string_content", "src/terminals.rs:echar", "src/terminals.rs:pn_chars_base1", "src/terminals.rs:pn_chars_u1", "src/terminals.rs:pn_chars_one", "src/terminals.rs:is_sp"]}
{"id": "C75", "title": "The effort of reading a property path", "statement": "The number of calls of path_alternative while a text is read is bounded by a polynomial in its length.", "quantifier": "every input string, accepted or not; for the counter-examples every nesting depth", "why_tests_cant": "Growth is a statement about a family of inputs of unbounded size; a test measures one size, and the texts that are slow are rejected ones.", "anchors": ["src/path.rs:path_alternative", "src/path.rs:path_sequence", "src/path.rs:path_primary", "src/path.rs:path_elt_or_inverse"]}
{"id": "C76", "title": "Restrictions that SPARQL puts on top of its grammar", "statement": "INSERT DATA and DELETE DATA reject variables, DELETE DATA and DELETE WHERE reject blank nodes, a prefixed name is accepted only if its prefix is declared, BIND rejects a variable that is already in scope, FILTER rejects aggregates, and SELECT * is not accepted together with GROUP BY.", "quantifier": "every update and query text; for the counter-examples every variable, blank node, prefix, aggregate and canonical group", "why_tests_cant": "That a restriction is enforced is a statement about all texts that break it; a test rejects one of them.", "anchors": ["src/operations.rs:insert_data", "src/operations.rs:delete_data", "src/operations.rs:delete_where_data", "src/quads.rs:quad_data", "src/expression/functions.rs:filter", "src/query/select.rs:select_query", "src/terminals.rs:prefixed_name"]}
{"id": "C77", "title": "A braced block means the same whatever follows it", "statement": "If a text v is read completely as a group graph pattern (or as a block of quads) when some text r follows it, then it is read completely, with the same tree, when any other text follows it; and a block with balanced braces that is rejected before one text is rejected before every text.", "quantifier": "every text v and all texts r, r' that may follow it", "why_tests_cant": "The claim compares one text before all possible continuations; a parser that looks beyond the closing brace (a greedy token, a lookahead, an alternative chosen by later text) is only caught by the continuation that triggers it.", "anchors": ["src/graph.rs:group_graph_pattern", "src/quads.rs:quad_data", "src/quads.rs:quads_pattern"]}
{"id": "C78", "title": "Update requests can be joined with a semicolon", "statement": "If a is a complete update request that ends with an operation and b is an update request, then a ; b is read as far as b is, and its operations with their prologues are those of a followed by those of b.", "quantifier": "all update texts a, b and every white space after the semicolon", "why_tests_cant": "It relates the readings of three texts for all pairs of requests; tests join a few fixed operations and miss operations whose last token is read further when a semicolon follows.", "anchors": ["src/update.rs:update", "src/update.rs:update_stmt", "src/terminals.rs:prologue"]}
{"id": "C79", "title": "Accepted requests are SPARQL 1.1", "statement": "What the query and update entry points consume is generated by the grammar of the SPARQL 1.1 recommendation.", "quantifier": "all input texts", "why_tests_cant": "It bounds the set of accepted texts from above; a test suite tries accepted samples and a few malformed ones, and cannot exclude that some other illegal text slips through.", "anchors": ["src/parser.rs:sparql_query_stmt", "src/update.rs:update", "src/operations.rs:modify_stmt", "src/graph.rs:group_graph_pattern_sub", "src/triple.rs:triples_block", "src/arithmetic.rs:additive_expression"]}
{"id": "C80", "title": "SPARQL 1.1 requests are accepted", "statement": "Every query and every update request that the grammar of the SPARQL 1.1 recommendation generates is read to its end, up to white space.", "quantifier": "all texts generated by the W3C grammar", "why_tests_cant": "The language is infinite; a suite samples requests, usually the author's own style of writing, and misses legal spellings such as ask{} or a dot before the closing brace.", "anchors": ["src/parser.rs:sparql_query_stmt", "src/update.rs:update", "src/update.rs:update_stmt", "src/operations.rs:load_stmt", "src/operations.rs:copy_stmt", "src/query/ask.rs:ask_query"]}
{"id": "C81", "title": "Errors tell where the mistake is", "statement": "When a text is rejected with an error that carries a position, the position is the place where the text cannot be read on: a caller can show it to the author of the query. Failures point at an unclosed bracket or an exponent without digits, recoverable errors at the first thing that is not as the grammar demands.", "quantifier": "all input strings, all nestings of groups", "why_tests_cant": "Where an error is reported depends on the path through alternatives and lists that swallow errors; tests check that a text is rejected, rarely where, and cannot cover every mistake.", "anchors": ["src/parser.rs:sparql_query_stmt", "src/parser.rs:sparql_query", "src/graph.rs:group_graph_pattern", "src/terminals.rs:anon", "src/terminals.rs:nil", "src/literal.rs:exponent", "src/update.rs:update"]}
{"id": "C82", "title": "The returned tree is not larger than a fixed multiple of the text", "statement": "Whatever the crate returns for a text takes memory proportional to the text: the number of values, vector places and string characters in the returned tree is at most a fixed constant times the number of characters that were consumed (plus a constant for the empty request).", "quantifier": "all accepted input strings: expressions, groups, queries, update requests", "why_tests_cant": "A test measures single texts; that no text however nested is blown up (each layer of the expression grammar adds values, optional and empty parts take memory without taking text) is a statement about all of them.", "anchors": ["src/parser.rs:sparql_query_stmt", "src/update.rs:update", "src/expression/mod.rs:expression", "src/graph.rs:group_graph_pattern", "src/arithmetic.rs:additive_expression", "src/path.rs:path_alternative", "src/triple.rs:triples_block", "src/clauses.rs:solution_modifier"]}
{"id": "C83", "title": "The returned tree is as deep as the brackets of the text are nested", "statement": "How many values of the returned tree lie below one another depends on how deeply the brackets of the text are nested, not on how long it is: at least the nesting, at most a fixed multiple of it plus a constant. So code that walks, drops, clones or prints the tree by recursion needs stack only for nesting.", "quantifier": "all accepted input strings: expressions, groups, queries, update requests", "why_tests_cant": "A test tries single nestings; that no list, operator chain or sequence of statements makes the tree deeper without brackets (and that no bracket is lost) is a statement about all texts.", "anchors": ["src/update.rs:update", "src/update.rs:Update", "src/parser.rs:sparql_query_stmt", "src/expression/mod.rs:expression", "src/graph.rs:group_graph_pattern", "src/aggregate.rs:group_concat", "src/path.rs:path_alternative"]}
{"id": "C84", "title": "Comparing returned trees with == is lawful and exact up to the rounding of numbers", "statement": "`==` on trees is reflexive, symmetric and transitive, as the `Eq` trait promises although an f64 is inside, and two trees are equal exactly if they are the same once every decimal is replaced by its f64. Trees of texts without decimals and without integers of more than 18 digits are equal only if they are identical.", "quantifier": "all pairs of trees of queries, update requests, expressions and groups; for the last part all pairs of accepted texts", "why_tests_cant": "Tests compare a few trees with themselves; that no returned number is a NaN, that the handwritten `impl Eq` is justified at every depth of every tree and that equality overlooks nothing but rounding concerns all pairs of trees.", "anchors": ["src/literal.rs:NumericLiteral", "src/literal.rs:sparql_decimal", "src/query/mod.rs:SparqlQueryStatement", "src/update.rs:Update", "src/call.rs:BuiltInCall"]}
{"id": "C85", "title": "Nothing that was written is lost", "statement": "A character that is in no keyword, number or punctuation of SPARQL (`$` and all characters outside ASCII) is stored in the returned tree exactly as many times as it stands in the consumed text outside comments; it is never stored more often than it was written.", "quantifier": "all accepted queries, update requests, expressions and groups, all such characters", "why_tests_cant": "Tests compare a few trees field by field; that no parser reads a name, an IRI or a literal and drops it, or stores one twice, concerns every combination of clauses.", "anchors": ["src/parser.rs:sparql_query_stmt", "src/update.rs:update", "src/expression/mod.rs:expression", "src/graph.rs:group_graph_pattern", "src/terminals.rs:sp"]}
{"id": "C86", "title": "What was written is stored in the order it was written", "statement": "Reading the strings of a returned tree in the order in which SPARQL writes its parts gives, for the characters that are in no keyword, number or punctuation (`$` and all characters outside ASCII), the consumed text again with some of its white space and comments taken out; the whole consumed text if none of these characters is in a comment.", "quantifier": "all accepted queries, update requests, expressions and groups", "why_tests_cant": "A swap of two fields shows only if a test has different texts in just these two places; that no parser swaps, drops or repeats a part concerns every combination of clauses at every depth.", "anchors": ["src/parser.rs:sparql_query_stmt", "src/update.rs:update", "src/expression/mod.rs:expression", "src/graph.rs:group_graph_pattern", "src/clauses.rs:solution_modifier"]}
