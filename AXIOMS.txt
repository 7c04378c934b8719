Axioms of each theorem in MANIFEST.json, as printed by `#print axioms`.

NomSparql.C01_sparqlQueryStmt               propext
NomSparql.C01_sparqlQuery                   propext
NomSparql.C01_selectQuery                   propext
NomSparql.C01_constructQuery                propext
NomSparql.C01_describeQuery                 propext
NomSparql.C01_askQuery                      propext
NomSparql.C01_subTriples                    propext
NomSparql.C01_subConstruct                  propext
NomSparql.C01_update                        propext
NomSparql.C02_sparqlQueryStmt               propext
NomSparql.C02_sparqlQuery                   propext
NomSparql.C02_selectQuery                   propext
NomSparql.C02_constructQuery                propext
NomSparql.C02_describeQuery                 propext
NomSparql.C02_askQuery                      propext
NomSparql.C02_subTriples                    propext
NomSparql.C02_subConstruct                  propext
NomSparql.C02_update                        propext
NomSparql.C03_sparqlQueryStmt               propext, Classical.choice, Quot.sound
NomSparql.C03_sparqlQuery                   propext, Classical.choice, Quot.sound
NomSparql.C03_selectQuery                   propext, Classical.choice, Quot.sound
NomSparql.C03_constructQuery                propext, Classical.choice, Quot.sound
NomSparql.C03_describeQuery                 propext, Classical.choice, Quot.sound
NomSparql.C03_askQuery                      propext, Classical.choice, Quot.sound
NomSparql.C03_update                        propext, Classical.choice, Quot.sound
NomSparql.C03_budget                        propext, Classical.choice, Quot.sound
NomSparql.C03_equations                     propext, Classical.choice, Quot.sound
NomSparql.C04_sparqlQueryStmt               propext, Quot.sound
NomSparql.C04_sparqlQuery                   propext, Quot.sound
NomSparql.C04_constructQuery                propext, Quot.sound
NomSparql.C04_describeQuery                 propext, Quot.sound
NomSparql.C04_askQuery                      propext, Quot.sound
NomSparql.C04_updateStmt                    propext, Quot.sound
NomSparql.C04_update_empty                  propext
NomSparql.C05_sparqlQueryStmt_partial       propext, Classical.choice, Quot.sound
NomSparql.C05_sparqlQuery_partial           propext, Classical.choice, Quot.sound
NomSparql.C05_selectQuery_partial           propext, Classical.choice, Quot.sound
NomSparql.C05_constructQuery_partial        propext, Classical.choice, Quot.sound
NomSparql.C05_describeQuery_partial         propext, Classical.choice, Quot.sound
NomSparql.C05_askQuery_partial              propext, Classical.choice, Quot.sound
NomSparql.C05_subTriples_partial            propext, Classical.choice, Quot.sound
NomSparql.C05_subConstruct_partial          propext, Classical.choice, Quot.sound
NomSparql.C05_update_partial                propext, Classical.choice, Quot.sound
NomSparql.C05_groupGraphPattern_partial     propext, Classical.choice, Quot.sound
NomSparql.C05_expression_partial            propext, Classical.choice, Quot.sound
NomSparql.C05_prologue                      propext, Classical.choice, Quot.sound
NomSparql.C05_dataSetClause                 propext, Classical.choice, Quot.sound
NomSparql.C05_usingClause                   propext, Classical.choice, Quot.sound
NomSparql.C05_datablock                     propext, Classical.choice, Quot.sound
NomSparql.C05_limitOffsetClause             propext, Classical.choice, Quot.sound
NomSparql.C05_triplesTemplate               propext, Classical.choice, Quot.sound
NomSparql.C05_quads                         propext, Classical.choice, Quot.sound
NomSparql.C05_quadData                      propext, Classical.choice, Quot.sound
NomSparql.C05_insertData                    propext, Classical.choice, Quot.sound
NomSparql.C05_deleteData                    propext, Classical.choice, Quot.sound
NomSparql.C05_deleteWhereData               propext, Classical.choice, Quot.sound
NomSparql.C05_deleteInsert                  propext, Classical.choice, Quot.sound
NomSparql.C05_loadStmt                      propext, Classical.choice, Quot.sound
NomSparql.C05_clearStmt                     propext, Classical.choice, Quot.sound
NomSparql.C05_dropStmt                      propext, Classical.choice, Quot.sound
NomSparql.C05_createStmt                    propext, Classical.choice, Quot.sound
NomSparql.C05_copyStmt                      propext, Classical.choice, Quot.sound
NomSparql.C05_groupGraphPattern_violated    propext
NomSparql.C05_query_violated                propext
NomSparql.C05_query_kelvin_violated         propext
NomSparql.C06_sparqlQueryStmt_partial       propext, Classical.choice, Quot.sound
NomSparql.C06_sparqlQuery_partial           propext, Classical.choice, Quot.sound
NomSparql.C06_selectQuery_partial           propext, Classical.choice, Quot.sound
NomSparql.C06_constructQuery_partial        propext, Classical.choice, Quot.sound
NomSparql.C06_describeQuery_partial         propext, Classical.choice, Quot.sound
NomSparql.C06_askQuery_partial              propext, Classical.choice, Quot.sound
NomSparql.C06_subTriples_partial            propext, Classical.choice, Quot.sound
NomSparql.C06_subConstruct_partial          propext, Classical.choice, Quot.sound
NomSparql.C06_update_partial                propext, Classical.choice, Quot.sound
NomSparql.C06_groupGraphPattern_partial     propext, Classical.choice, Quot.sound
NomSparql.C06_expression_partial            propext, Classical.choice, Quot.sound
NomSparql.C06_prologue                      propext, Classical.choice, Quot.sound
NomSparql.C06_dataSetClause                 propext, Classical.choice, Quot.sound
NomSparql.C06_usingClause                   propext, Classical.choice, Quot.sound
NomSparql.C06_datablock                     propext, Classical.choice, Quot.sound
NomSparql.C06_limitOffsetClause             propext, Classical.choice, Quot.sound
NomSparql.C06_triplesTemplate               propext, Classical.choice, Quot.sound
NomSparql.C06_quads                         propext, Classical.choice, Quot.sound
NomSparql.C06_quadData                      propext, Classical.choice, Quot.sound
NomSparql.C06_insertData                    propext, Classical.choice, Quot.sound
NomSparql.C06_deleteData                    propext, Classical.choice, Quot.sound
NomSparql.C06_deleteWhereData               propext, Classical.choice, Quot.sound
NomSparql.C06_deleteInsert                  propext, Classical.choice, Quot.sound
NomSparql.C06_loadStmt                      propext, Classical.choice, Quot.sound
NomSparql.C06_clearStmt                     propext, Classical.choice, Quot.sound
NomSparql.C06_dropStmt                      propext, Classical.choice, Quot.sound
NomSparql.C06_createStmt                    propext, Classical.choice, Quot.sound
NomSparql.C06_copyStmt                      propext, Classical.choice, Quot.sound
NomSparql.C06_expression_violated           propext
NomSparql.C06_query_expression_violated     propext
NomSparql.C06_query_path_violated           propext
NomSparql.C07_query                         propext, Classical.choice, Quot.sound
NomSparql.C07_update                        propext, Classical.choice, Quot.sound
NomSparql.C07_base                          propext, Classical.choice, Quot.sound
NomSparql.C07_prefix                        propext, Classical.choice, Quot.sound
NomSparql.C07_from                          propext, Classical.choice, Quot.sound
NomSparql.C07_using                         propext, Classical.choice, Quot.sound
NomSparql.C07_where                         propext, Classical.choice, Quot.sound
NomSparql.C07_group                         propext, Classical.choice, Quot.sound
NomSparql.C07_having                        propext, Classical.choice, Quot.sound
NomSparql.C07_order                         propext, Classical.choice, Quot.sound
NomSparql.C07_limit                         propext, Classical.choice, Quot.sound
NomSparql.C07_offset                        propext, Classical.choice, Quot.sound
NomSparql.C07_values                        propext, Classical.choice, Quot.sound
NomSparql.C07_select                        propext, Classical.choice, Quot.sound
NomSparql.C07_insert                        propext, Classical.choice, Quot.sound
NomSparql.C07_delete                        propext, Classical.choice, Quot.sound
NomSparql.C07_add                           propext, Classical.choice, Quot.sound
NomSparql.C07_move                          propext, Classical.choice, Quot.sound
NomSparql.C07_pattern                       propext, Classical.choice, Quot.sound
NomSparql.C07_subSelect                     propext, Classical.choice, Quot.sound
NomSparql.C07_builtInCall                   propext, Classical.choice, Quot.sound
NomSparql.C07_aggregate                     propext, Classical.choice, Quot.sound
NomSparql.C07_op                            propext, Classical.choice, Quot.sound
NomSparql.C07_words                         propext, Classical.choice, Quot.sound
NomSparql.C07_accepted                      propext, Classical.choice, Quot.sound
NomSparql.C07_a_is_sensitive                propext, Classical.choice, Quot.sound
NomSparql.C08_faithful_partial              propext, Classical.choice, Quot.sound
NomSparql.C08_query_partial                 propext, Classical.choice, Quot.sound
NomSparql.C08_select_partial                propext, Classical.choice, Quot.sound
NomSparql.C08_construct_partial             propext, Classical.choice, Quot.sound
NomSparql.C08_describe_partial              propext, Classical.choice, Quot.sound
NomSparql.C08_ask_partial                   propext, Classical.choice, Quot.sound
NomSparql.C08_subTriples                    propext, Classical.choice, Quot.sound
NomSparql.C08_subConstruct_partial          propext, Classical.choice, Quot.sound
NomSparql.C08_expression_partial            propext, Classical.choice, Quot.sound
NomSparql.C08_group_partial                 propext, Classical.choice, Quot.sound
NomSparql.C08_prologue                      propext, Classical.choice, Quot.sound
NomSparql.C08_datablock                     propext, Classical.choice, Quot.sound
NomSparql.C08_template                      propext, Classical.choice, Quot.sound
NomSparql.C08_expression_unfold_partial     propext, Classical.choice, Quot.sound
NomSparql.C08_group_unfold_partial          propext, Classical.choice, Quot.sound
NomSparql.C08_function_violated             propext
NomSparql.C08_path_violated                 propext
NomSparql.C08_objects_violated              propext
NomSparql.C09_faithful_partial              propext, Classical.choice, Quot.sound
NomSparql.C09_statement_partial             propext, Classical.choice, Quot.sound
NomSparql.C09_load                          propext, Classical.choice, Quot.sound
NomSparql.C09_clear                         propext, Classical.choice, Quot.sound
NomSparql.C09_drop                          propext, Classical.choice, Quot.sound
NomSparql.C09_create                        propext, Classical.choice, Quot.sound
NomSparql.C09_copy                          propext, Classical.choice, Quot.sound
NomSparql.C09_add                           propext, Classical.choice, Quot.sound
NomSparql.C09_move                          propext, Classical.choice, Quot.sound
NomSparql.C09_insertData                    propext, Classical.choice, Quot.sound
NomSparql.C09_deleteData                    propext, Classical.choice, Quot.sound
NomSparql.C09_deleteWhere                   propext, Classical.choice, Quot.sound
NomSparql.C09_delete_violated               propext
NomSparql.C09_with_violated                 propext
NomSparql.C10_form                          propext, Classical.choice, Quot.sound
NomSparql.C10_exactly                       propext, Classical.choice, Quot.sound
NomSparql.C10_statement                     propext, Classical.choice, Quot.sound
NomSparql.C10_reached_partial               propext, Classical.choice, Quot.sound
NomSparql.C11_exact                         propext, Classical.choice, Quot.sound
NomSparql.C11_total                         propext, Classical.choice, Quot.sound
NomSparql.C11_sp1_exact                     propext, Classical.choice, Quot.sound
NomSparql.C11_sp1_rejects                   propext, Classical.choice, Quot.sound
NomSparql.C11_interchangeable               propext, Classical.choice, Quot.sound
NomSparql.C11_sp1_interchangeable           propext, Classical.choice, Quot.sound
NomSparql.C11_twice                         propext, Classical.choice, Quot.sound
NomSparql.C11_comment                       propext, Classical.choice, Quot.sound
NomSparql.C11_comment_at_end_not_skipped    propext, Classical.choice, Quot.sound
NomSparql.C12_exact                         propext, Classical.choice, Quot.sound
NomSparql.C12_roundtrip                     propext, Classical.choice, Quot.sound
NomSparql.C12_accepted                      propext, Classical.choice, Quot.sound
NomSparql.C12_latin1                        propext, Classical.choice, Quot.sound
NomSparql.C12_illegal_accepted_violated     propext, Classical.choice, Quot.sound
NomSparql.C12_legal_rejected_violated       propext, Classical.choice, Quot.sound
NomSparql.C13_exact                         propext, Quot.sound
NomSparql.C13_accepted_legal                propext, Quot.sound
NomSparql.C13_latin1                        propext, Quot.sound
NomSparql.C13_iri                           propext, Quot.sound
NomSparql.C13_legal_rejected_violated       propext, Quot.sound
NomSparql.C14_roundtrip_partial             propext, Classical.choice, Quot.sound
NomSparql.C14_accepted                      propext, Classical.choice, Quot.sound
NomSparql.C14_accepted_ns                   propext, Classical.choice, Quot.sound
NomSparql.C14_roundtrip_ns                  propext, Classical.choice, Quot.sound
NomSparql.C14_single_unit_violated          propext, Classical.choice, Quot.sound
NomSparql.C14_dot_swallowed_violated        propext, Classical.choice, Quot.sound
NomSparql.C14_space_inside_violated         propext, Classical.choice, Quot.sound
NomSparql.C15_exact                         propext, Classical.choice, Quot.sound
NomSparql.C15_roundtrip                     propext, Classical.choice, Quot.sound
NomSparql.C15_empty_violated                propext, Classical.choice, Quot.sound
NomSparql.C15_newline_violated              propext, Classical.choice, Quot.sound
NomSparql.C15_bad_escape                    propext, Classical.choice, Quot.sound
NomSparql.C16_language                      propext, Classical.choice, Quot.sound
NomSparql.C16_datatype_iri                  propext, Classical.choice, Quot.sound
NomSparql.C16_datatype_prefixed             propext, Classical.choice, Quot.sound
NomSparql.C16_datatype_prefixed_accepted    propext, Classical.choice, Quot.sound
NomSparql.C16_plain                         propext, Classical.choice, Quot.sound
NomSparql.C16_plain_accepted                propext, Classical.choice, Quot.sound
NomSparql.C17_exact                         propext, Quot.sound
NomSparql.C17_roundtrip                     propext, Quot.sound
NomSparql.C17_value                         propext, Quot.sound
NomSparql.C17_overflow_violated             propext, Quot.sound
NomSparql.C18_never_int                     propext, Quot.sound
NomSparql.C18_decimal                       propext, Quot.sound
NomSparql.C18_double_partial                propext, Quot.sound
NomSparql.C18_accepted                      propext, Quot.sound
NomSparql.C18_missing_exponent              propext, Quot.sound
NomSparql.C18_exponent_overflow_violated    propext, Quot.sound
NomSparql.C19_exact                         propext, Classical.choice, Quot.sound
NomSparql.C20_label                         propext, Classical.choice, Quot.sound
NomSparql.C20_label_accepted                propext, Classical.choice, Quot.sound
NomSparql.C20_longest                       propext, Classical.choice, Quot.sound
NomSparql.C20_anon                          propext, Classical.choice, Quot.sound
NomSparql.C20_bracket_failure               propext, Classical.choice, Quot.sound
NomSparql.C20_dot_swallowed_violated        propext, Classical.choice, Quot.sound
NomSparql.C21_exact                         propext, Classical.choice, Quot.sound
NomSparql.C21_agrees_partial                propext, Classical.choice, Quot.sound
NomSparql.C21_complete_bmp                  propext, Classical.choice, Quot.sound
NomSparql.C21_false_accept_violated         propext, Classical.choice, Quot.sound
NomSparql.C21_false_reject_violated         propext, Classical.choice, Quot.sound
NomSparql.C22_documented_partial            propext, Quot.sound
NomSparql.C22_simple_violated               propext, Quot.sound
NomSparql.C23_sign                          propext
NomSparql.C23_sign_roundtrip                none
NomSparql.C23_sign_parser                   propext, Quot.sound
NomSparql.C23_pathMod                       propext
NomSparql.C23_pathMod_injective             propext
NomSparql.C24_prologue                      propext, Classical.choice, Quot.sound
NomSparql.C24_accepted                      propext, Classical.choice, Quot.sound
NomSparql.C25_from                          propext, Classical.choice, Quot.sound
NomSparql.C25_using                         propext, Classical.choice, Quot.sound
NomSparql.C25_from_accepted                 propext, Classical.choice, Quot.sound
NomSparql.C25_using_accepted                propext, Classical.choice, Quot.sound
NomSparql.C25_sequence_partial              propext, Classical.choice, Quot.sound
NomSparql.C25_using_sequence_partial        propext, Classical.choice, Quot.sound
NomSparql.C25_end_violated                  propext, Classical.choice, Quot.sound
NomSparql.C25_using_end_violated            propext, Classical.choice, Quot.sound
NomSparql.C25_ask_violated                  propext, Classical.choice, Quot.sound
NomSparql.C25_query_partial                 propext, Classical.choice, Quot.sound
NomSparql.C25_ask_partial                   propext, Classical.choice, Quot.sound
NomSparql.C26_limit                         propext, Classical.choice, Quot.sound
NomSparql.C26_offset                        propext, Classical.choice, Quot.sound
NomSparql.C26_limit_offset                  propext, Classical.choice, Quot.sound
NomSparql.C26_offset_limit                  propext, Classical.choice, Quot.sound
NomSparql.C26_limit_only                    propext, Classical.choice, Quot.sound
NomSparql.C26_offset_only                   propext, Classical.choice, Quot.sound
NomSparql.C26_overflow                      propext, Classical.choice, Quot.sound
NomSparql.C27_datablock                     propext, Classical.choice, Quot.sound
NomSparql.C27_accepted                      propext, Classical.choice, Quot.sound
NomSparql.C27_clause                        propext, Classical.choice, Quot.sound
NomSparql.C28_any_rows_violated             propext, Classical.choice, Quot.sound
NomSparql.C28_violated                      propext, Classical.choice, Quot.sound
NomSparql.C29_only_after_modifier_violated  propext, Classical.choice, Quot.sound
NomSparql.C29_attached_partial              propext, Classical.choice, Quot.sound
NomSparql.C29_ask_violated                  propext, Classical.choice, Quot.sound
NomSparql.C30_query                         propext, Classical.choice, Quot.sound
NomSparql.C30_update                        propext, Classical.choice, Quot.sound
NomSparql.C30_expression                    propext, Classical.choice, Quot.sound
NomSparql.C30_group                         propext, Classical.choice, Quot.sound
NomSparql.C30_modifier                      propext, Classical.choice, Quot.sound
NomSparql.C30_projection                    propext, Classical.choice, Quot.sound
NomSparql.C30_conditions                    propext, Classical.choice, Quot.sound
NomSparql.C31_order_needs_ws_violated       propext, Classical.choice, Quot.sound
NomSparql.C31_group_needs_ws_violated       propext, Classical.choice, Quot.sound
NomSparql.C31_having_needs_ws_violated      propext, Classical.choice, Quot.sound
NomSparql.C31_query_violated                propext, Classical.choice, Quot.sound
NomSparql.C31_violated                      propext, Classical.choice, Quot.sound
NomSparql.C31_ask_violated                  propext, Classical.choice, Quot.sound
NomSparql.C31_partial                       propext, Classical.choice, Quot.sound
NomSparql.C31_limit_partial                 propext, Classical.choice, Quot.sound
NomSparql.C32_violated                      propext, Classical.choice, Quot.sound
NomSparql.C32_two_violated                  propext, Classical.choice, Quot.sound
NomSparql.C32_unseparated_partial           propext, Classical.choice, Quot.sound
NomSparql.C33_modifier_violated             propext, Classical.choice, Quot.sound
NomSparql.C33_violated                      propext, Classical.choice, Quot.sound
NomSparql.C33_ask_violated                  propext, Classical.choice, Quot.sound
NomSparql.C33_select_violated               propext, Classical.choice, Quot.sound
NomSparql.C33_patterns_partial              propext, Classical.choice, Quot.sound
NomSparql.C33_final_dot_violated            propext, Classical.choice, Quot.sound
NomSparql.C34_construct_template            propext, Classical.choice, Quot.sound
NomSparql.C34_block                         propext, Classical.choice, Quot.sound
NomSparql.C34_quads                         propext, Classical.choice, Quot.sound
NomSparql.C34_construct_query               propext, Classical.choice, Quot.sound
NomSparql.C34_final_dot_violated            propext, Classical.choice, Quot.sound
NomSparql.C34_query_final_dot_violated      propext, Classical.choice, Quot.sound
NomSparql.C35_node_violated                 propext, Classical.choice, Quot.sound
NomSparql.C35_node_path_violated            propext, Classical.choice, Quot.sound
NomSparql.C35_object_violated               propext, Classical.choice, Quot.sound
NomSparql.C35_nested_violated               propext, Classical.choice, Quot.sound
NomSparql.C35_where_subject_violated        propext, Classical.choice, Quot.sound
NomSparql.C35_where_object_violated         propext, Classical.choice, Quot.sound
NomSparql.C35_subject_partial               propext, Classical.choice, Quot.sound
NomSparql.C36_one_sequence_violated         propext, Classical.choice, Quot.sound
NomSparql.C36_alternative_violated          propext, Classical.choice, Quot.sound
NomSparql.C36_elements_partial              propext, Classical.choice, Quot.sound
NomSparql.C36_slash_violated                propext, Classical.choice, Quot.sound
NomSparql.C37_template_partial              propext, Classical.choice, Quot.sound
NomSparql.C37_where_partial                 propext, Classical.choice, Quot.sound
NomSparql.C37_colon_violated                propext, Classical.choice, Quot.sound
NomSparql.C37_template_colon_violated       propext, Classical.choice, Quot.sound
NomSparql.C37_where_colon_violated          propext, Classical.choice, Quot.sound
NomSparql.C38_group_partial                 propext, Classical.choice, Quot.sound
NomSparql.C38_unambiguous                   propext, Classical.choice, Quot.sound
NomSparql.C38_space                         propext, Classical.choice, Quot.sound
NomSparql.C38_space_violated                propext, Classical.choice, Quot.sound
NomSparql.C38_variable_violated             propext, Classical.choice, Quot.sound
NomSparql.C38_variable_rejected_violated    propext, Classical.choice, Quot.sound
NomSparql.C39_expression                    propext, Classical.choice, Quot.sound
NomSparql.C39_unambiguous                   propext, Classical.choice, Quot.sound
NomSparql.C39_written                       propext, Classical.choice, Quot.sound
NomSparql.C39_or_and                        propext, Classical.choice, Quot.sound
NomSparql.C39_and_or                        propext, Classical.choice, Quot.sound
NomSparql.C39_rel_and                       propext, Classical.choice, Quot.sound
NomSparql.C40_sums_partial                  propext, Classical.choice, Quot.sound
NomSparql.C40_plain_violated                propext, Classical.choice, Quot.sound
NomSparql.C40_violated                      propext, Classical.choice, Quot.sound
NomSparql.C41_products_partial              propext, Classical.choice, Quot.sound
NomSparql.C41_space                         propext, Classical.choice, Quot.sound
NomSparql.C41_violated                      propext, Classical.choice, Quot.sound
NomSparql.C42_arguments_violated            propext, Classical.choice, Quot.sound
NomSparql.C42_list_violated                 propext, Classical.choice, Quot.sound
NomSparql.C42_lists_empty_violated          propext, Classical.choice, Quot.sound
NomSparql.C42_arguments_empty_violated      propext, Classical.choice, Quot.sound
NomSparql.C42_in_violated                   propext, Classical.choice, Quot.sound
NomSparql.C42_call_violated                 propext, Classical.choice, Quot.sound
NomSparql.C42_function_violated             propext, Classical.choice, Quot.sound
NomSparql.C42_no_arguments_partial          propext, Classical.choice, Quot.sound
NomSparql.C42_no_elements_partial           propext, Classical.choice, Quot.sound
NomSparql.C43_calls_partial                 propext, Classical.choice, Quot.sound
NomSparql.C43_unambiguous                   propext, Classical.choice, Quot.sound
NomSparql.C43_written                       propext, Classical.choice, Quot.sound
NomSparql.C43_rounding_violated             propext, Classical.choice, Quot.sound
NomSparql.C43_unreachable_violated          propext, Classical.choice, Quot.sound
NomSparql.C43_strlen_violated               propext, Classical.choice, Quot.sound
NomSparql.C43_contains_violated             propext, Classical.choice, Quot.sound
NomSparql.C43_unknown_violated              propext, Classical.choice, Quot.sound
NomSparql.C43_lists_violated                propext, Classical.choice, Quot.sound
NomSparql.C43_lists_empty_violated          propext, Classical.choice, Quot.sound
NomSparql.C44_violated                      propext, Classical.choice, Quot.sound
NomSparql.C44_doubled_partial               propext, Classical.choice, Quot.sound
NomSparql.C45_aggregates                    propext, Classical.choice, Quot.sound
NomSparql.C45_canonical                     propext, Classical.choice, Quot.sound
NomSparql.C45_distinct                      propext, Classical.choice, Quot.sound
NomSparql.C46_load                          propext, Classical.choice, Quot.sound
NomSparql.C46_clear                         propext, Classical.choice, Quot.sound
NomSparql.C46_drop                          propext, Classical.choice, Quot.sound
NomSparql.C46_create                        propext, Classical.choice, Quot.sound
NomSparql.C46_copy                          propext, Classical.choice, Quot.sound
NomSparql.C46_statement_partial             propext, Classical.choice, Quot.sound
NomSparql.C46_default_violated              propext, Classical.choice, Quot.sound
NomSparql.C47_add_partial                   propext, Classical.choice, Quot.sound
NomSparql.C47_move_partial                  propext, Classical.choice, Quot.sound
NomSparql.C47_violated                      propext, Classical.choice, Quot.sound
NomSparql.C48_insert_data_partial           propext, Classical.choice, Quot.sound
NomSparql.C48_delete_data_partial           propext, Classical.choice, Quot.sound
NomSparql.C48_delete_where_partial          propext, Classical.choice, Quot.sound
NomSparql.C48_space_violated                propext, Classical.choice, Quot.sound
NomSparql.C48_insert_violated               propext, Classical.choice, Quot.sound
NomSparql.C48_statement_partial             propext, Classical.choice, Quot.sound
NomSparql.C49_insert_using_partial          propext, Classical.choice, Quot.sound
NomSparql.C49_insert_violated               propext, Classical.choice, Quot.sound
NomSparql.C49_delete_violated               propext, Classical.choice, Quot.sound
NomSparql.C49_with_violated                 propext, Classical.choice, Quot.sound
NomSparql.C50_chain_partial                 propext, Classical.choice, Quot.sound
NomSparql.C50_patterns_partial              propext, Classical.choice, Quot.sound
NomSparql.C50_accepted                      propext, Classical.choice, Quot.sound
NomSparql.C50_dropped_violated              propext, Classical.choice, Quot.sound
NomSparql.C51_single_quoted                 propext
NomSparql.C51_double_quoted_partial         propext
NomSparql.C51_apostrophe_violated           propext
NomSparql.C52_query                         propext, Classical.choice, Quot.sound
NomSparql.C52_update                        propext, Classical.choice, Quot.sound
NomSparql.C52_expression                    propext, Classical.choice, Quot.sound
NomSparql.C52_group                         propext, Classical.choice, Quot.sound
NomSparql.C52_prologue                      propext, Classical.choice, Quot.sound
NomSparql.C53_query_violated                propext, Classical.choice, Quot.sound
NomSparql.C53_update_violated               propext, Classical.choice, Quot.sound
NomSparql.C53_nodes_violated                propext, Classical.choice, Quot.sound
NomSparql.C53_lists_violated                propext, Classical.choice, Quot.sound
NomSparql.C53_calls_violated                propext, Classical.choice, Quot.sound
NomSparql.C53_statements_violated           propext, Classical.choice, Quot.sound
NomSparql.C53_calls_partial                 propext
NomSparql.C53_statements_partial            propext
NomSparql.C54_query_partial                 propext, Classical.choice, Quot.sound
NomSparql.C54_unambiguous                   propext, Classical.choice, Quot.sound
NomSparql.C54_values_partial                propext, Classical.choice, Quot.sound
NomSparql.C55_never_error_violated          propext, Classical.choice, Quot.sound
NomSparql.C55_garbage_violated              propext, Classical.choice, Quot.sound
NomSparql.C55_empty_partial                 propext, Classical.choice, Quot.sound
NomSparql.C56_value                         propext, Classical.choice, Quot.sound
NomSparql.C56_pair                          propext, Classical.choice, Quot.sound
NomSparql.C56_case                          propext, Classical.choice, Quot.sound
NomSparql.C56_encode                        propext, Classical.choice, Quot.sound
NomSparql.C57_condition_violated            propext, Classical.choice, Quot.sound
NomSparql.C57_clause_violated               propext, Classical.choice, Quot.sound
NomSparql.C57_ask_violated                  propext, Classical.choice, Quot.sound
NomSparql.C57_partial                       propext, Classical.choice, Quot.sound
NomSparql.C57_unnamed_partial               propext, Classical.choice, Quot.sound
NomSparql.C58_comma_violated                propext, Classical.choice, Quot.sound
NomSparql.C58_ask_comma_violated            propext, Classical.choice, Quot.sound
NomSparql.C58_misread_violated              propext, Classical.choice, Quot.sound
NomSparql.C58_semicolon_violated            propext, Classical.choice, Quot.sound
NomSparql.C58_ask_semicolon_violated        propext, Classical.choice, Quot.sound
NomSparql.C58_trailing_violated             propext, Classical.choice, Quot.sound
NomSparql.C58_lists_partial                 propext, Classical.choice, Quot.sound
NomSparql.C59_query_violated                propext, Classical.choice, Quot.sound
NomSparql.C59_update_violated               propext, Classical.choice, Quot.sound
NomSparql.C59_query_partial                 propext, Classical.choice, Quot.sound
NomSparql.C59_update_partial                propext, Classical.choice, Quot.sound
NomSparql.C60_where_violated                propext, Classical.choice, Quot.sound
NomSparql.C60_select_where_violated         propext, Classical.choice, Quot.sound
NomSparql.C60_form_violated                 propext, Classical.choice, Quot.sound
NomSparql.C60_group_violated                propext, Classical.choice, Quot.sound
NomSparql.C60_data_violated                 propext, Classical.choice, Quot.sound
NomSparql.C60_where_partial                 propext, Classical.choice, Quot.sound
NomSparql.C61_end_violated                  propext, Classical.choice, Quot.sound
NomSparql.C61_partial                       propext, Classical.choice, Quot.sound
NomSparql.C62_query_violated                propext, Classical.choice, Quot.sound
NomSparql.C62_ws_partial                    propext, Classical.choice, Quot.sound
NomSparql.C62_iri_partial                   propext, Quot.sound
NomSparql.C62_var_partial                   propext, Classical.choice, Quot.sound
NomSparql.C62_string_partial                propext, Classical.choice, Quot.sound
NomSparql.C62_group_partial                 propext, Classical.choice, Quot.sound
NomSparql.C63_counted                       propext, Quot.sound
NomSparql.C63_count_expression              propext, Classical.choice, Quot.sound
NomSparql.C63_count_group                   propext, Classical.choice, Quot.sound
NomSparql.C63_expression_violated           propext, Classical.choice, Quot.sound
NomSparql.C63_query_violated                propext, Classical.choice, Quot.sound
NomSparql.C63_polynomial_violated           propext, Classical.choice, Quot.sound
NomSparql.C63_bound_partial                 propext, Quot.sound
NomSparql.C63_strlen_partial                propext, Classical.choice, Quot.sound
NomSparql.C63_expression_partial            propext, Classical.choice, Quot.sound
NomSparql.C63_group_partial                 propext, Classical.choice, Quot.sound
NomSparql.C63_linear_partial                propext, Classical.choice, Quot.sound
NomSparql.C63_few_partial                   propext, Classical.choice, Quot.sound
NomSparql.C63_update_counted                propext, Quot.sound
NomSparql.C63_count_update                  propext, Classical.choice, Quot.sound
NomSparql.C63_update_violated               propext, Classical.choice, Quot.sound
NomSparql.C63_update_polynomial_violated    propext, Classical.choice, Quot.sound
NomSparql.C63_update_strlen_partial         propext, Classical.choice, Quot.sound
NomSparql.C63_update_few_partial            propext, Classical.choice, Quot.sound
NomSparql.C63_accepted_violated             propext, Classical.choice, Quot.sound
NomSparql.C63_update_accepted_violated      propext, Classical.choice, Quot.sound
NomSparql.C63_accepted_polynomial_violated  propext, Classical.choice, Quot.sound
NomSparql.C64_parameter                     propext
NomSparql.C64_expression_partial            propext, Classical.choice, Quot.sound
NomSparql.C64_group_partial                 propext, Classical.choice, Quot.sound
NomSparql.C64_query_partial                 propext, Classical.choice, Quot.sound
NomSparql.C64_update_statement_partial      propext, Classical.choice, Quot.sound
NomSparql.C64_update_partial                propext, Classical.choice, Quot.sound
NomSparql.C64_path_partial                  propext, Classical.choice, Quot.sound
NomSparql.C64_node                          propext, Classical.choice, Quot.sound
NomSparql.C64_node_path                     propext, Classical.choice, Quot.sound
NomSparql.C64_expression_violated           propext, Classical.choice, Quot.sound
NomSparql.C64_group_violated                propext, Classical.choice, Quot.sound
NomSparql.C64_query_violated                propext, Classical.choice, Quot.sound
NomSparql.C64_path_violated                 propext, Classical.choice, Quot.sound
NomSparql.C64_update_violated               propext, Classical.choice, Quot.sound
NomSparql.C64_nested_group                  propext, Classical.choice, Quot.sound
NomSparql.C64_nested_query                  propext, Classical.choice, Quot.sound
NomSparql.C64_nested_expression             propext, Classical.choice, Quot.sound
NomSparql.C65_nearest_partial               propext, Classical.choice, Quot.sound
NomSparql.C65_error_partial                 propext, Classical.choice, Quot.sound
NomSparql.C65_exact_partial                 propext, Classical.choice, Quot.sound
NomSparql.C65_integer_partial               propext, Classical.choice, Quot.sound
NomSparql.C65_order_partial                 propext, Classical.choice, Quot.sound
NomSparql.C65_same_partial                  propext, Classical.choice, Quot.sound
NomSparql.C65_reflexive                     propext, Classical.choice, Quot.sound
NomSparql.C65_distinct_partial              propext, Classical.choice, Quot.sound
NomSparql.C65_collapse_violated             propext, Classical.choice, Quot.sound
NomSparql.C65_infinite_violated             propext, Classical.choice, Quot.sound
NomSparql.C65_zero_violated                 propext, Classical.choice, Quot.sound
NomSparql.C66_query                         propext, Classical.choice, Quot.sound
NomSparql.C66_update                        propext, Classical.choice, Quot.sound
NomSparql.C66_expression                    propext, Classical.choice, Quot.sound
NomSparql.C66_group                         propext, Classical.choice, Quot.sound
NomSparql.C66_marks_query                   propext, Classical.choice, Quot.sound
NomSparql.C66_marks_update                  propext, Classical.choice, Quot.sound
NomSparql.C67_violated                      propext
NomSparql.C67_query_partial                 propext, Classical.choice, Quot.sound
NomSparql.C67_update_partial                propext, Classical.choice, Quot.sound
NomSparql.C67_group_partial                 propext, Classical.choice, Quot.sound
NomSparql.C67_expression_partial            propext, Classical.choice, Quot.sound
NomSparql.C67_injective                     propext, Classical.choice, Quot.sound
NomSparql.C67_update_injective              propext, Classical.choice, Quot.sound
NomSparql.C67_class_query                   propext, Classical.choice, Quot.sound
NomSparql.C67_class_update                  propext, Classical.choice, Quot.sound
NomSparql.C67_class_group                   propext, Classical.choice, Quot.sound
NomSparql.C67_class_expression              propext, Classical.choice, Quot.sound
NomSparql.C67_reprint_partial               propext, Classical.choice, Quot.sound
NomSparql.C67_reprint_update_partial        propext, Classical.choice, Quot.sound
NomSparql.C68_query_partial                 propext, Classical.choice, Quot.sound
NomSparql.C68_update_partial                propext, Classical.choice, Quot.sound
NomSparql.C68_parts_partial                 propext, Classical.choice, Quot.sound
NomSparql.C68_whole_partial                 propext, Classical.choice, Quot.sound
NomSparql.C68_squeeze_partial               propext, Classical.choice, Quot.sound
NomSparql.C68_prologue_partial              propext, Classical.choice, Quot.sound
NomSparql.C68_canonical_partial             propext, Classical.choice, Quot.sound
NomSparql.C68_violated                      propext, Classical.choice, Quot.sound
NomSparql.C69_query_partial                 propext, Classical.choice, Quot.sound
NomSparql.C69_update_partial                propext, Classical.choice, Quot.sound
NomSparql.C69_parts_partial                 propext, Classical.choice, Quot.sound
NomSparql.C69_strings_partial               propext, Classical.choice, Quot.sound
NomSparql.C69_rename_partial                propext, Classical.choice, Quot.sound
NomSparql.C69_tree_partial                  propext, Quot.sound
NomSparql.C69_tree_update_partial           propext, Quot.sound
NomSparql.C69_function_partial              propext, Classical.choice, Quot.sound
NomSparql.C69_calm_partial                  propext, Classical.choice, Quot.sound
NomSparql.C69_askString_partial             propext, Classical.choice, Quot.sound
NomSparql.C69_name_violated                 propext, Classical.choice, Quot.sound
NomSparql.C69_prefix_violated               propext
NomSparql.C69_empty_violated                propext, Classical.choice, Quot.sound
NomSparql.C70_query                         propext, Classical.choice, Quot.sound
NomSparql.C70_update                        propext, Classical.choice, Quot.sound
NomSparql.C70_expression                    propext, Classical.choice, Quot.sound
NomSparql.C70_group                         propext, Classical.choice, Quot.sound
NomSparql.C70_triples                       propext, Classical.choice, Quot.sound
NomSparql.C70_path                          propext, Classical.choice, Quot.sound
NomSparql.C70_query_scan                    propext, Classical.choice, Quot.sound
NomSparql.C70_update_scan                   propext, Classical.choice, Quot.sound
NomSparql.C70_expression_scan               propext, Classical.choice, Quot.sound
NomSparql.C70_unbalanced                    propext, Classical.choice, Quot.sound
NomSparql.C70_query_count                   propext, Classical.choice, Quot.sound
NomSparql.C70_update_count                  propext, Classical.choice, Quot.sound
NomSparql.C71_typed_violated                propext, Classical.choice, Quot.sound
NomSparql.C71_never_typed_violated          propext, Classical.choice, Quot.sound
NomSparql.C71_language_partial              propext, Classical.choice, Quot.sound
NomSparql.C71_simple_partial                propext, Classical.choice, Quot.sound
NomSparql.C71_simple_accepted               propext, Classical.choice, Quot.sound
NomSparql.C72_query                         propext, Classical.choice, Quot.sound
NomSparql.C72_update                        propext, Classical.choice, Quot.sound
NomSparql.C72_both                          propext, Classical.choice, Quot.sound
NomSparql.C72_prologue                      propext, Classical.choice, Quot.sound
NomSparql.C73_iri                           propext, Quot.sound
NomSparql.C73_prefixed                      propext, Classical.choice, Quot.sound
NomSparql.C73_literal                       propext, Classical.choice, Quot.sound
NomSparql.C73_tagged                        propext, Classical.choice, Quot.sound
NomSparql.C73_typed                         propext, Classical.choice, Quot.sound
NomSparql.C73_limit_offset                  propext, Classical.choice, Quot.sound
NomSparql.C73_offset_limit                  propext, Classical.choice, Quot.sound
NomSparql.C73_limit                         propext, Classical.choice, Quot.sound
NomSparql.C73_offset                        propext, Classical.choice, Quot.sound
NomSparql.C73_injective                     none
NomSparql.C74_content                       propext, Classical.choice, Quot.sound
NomSparql.C74_echar_accepted                propext, Classical.choice, Quot.sound
NomSparql.C74_echar_text_violated           propext, Classical.choice, Quot.sound
NomSparql.C74_echar_backslash_violated      propext, Classical.choice, Quot.sound
NomSparql.C74_echar_partial                 propext, Classical.choice, Quot.sound
NomSparql.C74_base                          propext, Classical.choice, Quot.sound
NomSparql.C74_underscore                    propext, Classical.choice, Quot.sound
NomSparql.C74_chars                         propext, Classical.choice, Quot.sound
NomSparql.C74_one                           propext, Classical.choice, Quot.sound
NomSparql.C74_one_underscore                propext, Classical.choice, Quot.sound
NomSparql.C74_blank                         propext, Classical.choice, Quot.sound
NomSparql.C75_counted                       propext, Quot.sound
NomSparql.C75_counted_query                 propext, Classical.choice, Quot.sound
NomSparql.C75_count                         propext, Classical.choice, Quot.sound
NomSparql.C75_double_violated               propext, Classical.choice, Quot.sound
NomSparql.C75_path_violated                 propext, Classical.choice, Quot.sound
NomSparql.C75_query_violated                propext, Classical.choice, Quot.sound
NomSparql.C75_polynomial_violated           propext, Classical.choice, Quot.sound
NomSparql.C75_bound_partial                 propext, Classical.choice, Quot.sound
NomSparql.C75_linear_partial                propext, Classical.choice, Quot.sound
NomSparql.C75_accepted_partial              propext, Classical.choice, Quot.sound
NomSparql.C76_data_violated                 propext, Classical.choice, Quot.sound
NomSparql.C76_variable_violated             propext, Classical.choice, Quot.sound
NomSparql.C76_blank_violated                propext, Classical.choice, Quot.sound
NomSparql.C76_prefix_violated               propext, Classical.choice, Quot.sound
NomSparql.C76_bind_violated                 propext, Classical.choice, Quot.sound
NomSparql.C76_aggregate_violated            propext, Classical.choice, Quot.sound
NomSparql.C76_star_violated                 propext, Classical.choice, Quot.sound
NomSparql.C76_no_variable_partial           propext, Classical.choice, Quot.sound
NomSparql.C76_no_blank_partial              propext, Classical.choice, Quot.sound
NomSparql.C77_group_partial                 propext, Classical.choice, Quot.sound
NomSparql.C77_quads_partial                 propext, Classical.choice, Quot.sound
NomSparql.C77_group_verdict_partial         propext, Classical.choice, Quot.sound
NomSparql.C77_quads_verdict_partial         propext, Classical.choice, Quot.sound
NomSparql.C77_group_plain_partial           propext, Classical.choice, Quot.sound
NomSparql.C77_quads_plain_partial           propext, Classical.choice, Quot.sound
NomSparql.C77_group_angle_partial           propext, Classical.choice, Quot.sound
NomSparql.C78_join_partial                  propext, Classical.choice, Quot.sound
NomSparql.C78_join_plain_partial            propext, Classical.choice, Quot.sound
NomSparql.C79_query_partial                 propext, Classical.choice, Quot.sound
NomSparql.C79_update_partial                propext, Classical.choice, Quot.sound
NomSparql.C79_data_partial                  propext, Classical.choice, Quot.sound
NomSparql.C79_tokens_partial                propext, Classical.choice, Quot.sound
NomSparql.C79_query_liberties_partial       propext, Classical.choice, Quot.sound
NomSparql.C79_update_liberties_partial      propext, Classical.choice, Quot.sound
NomSparql.C79_query_careful_partial         propext, Classical.choice, Quot.sound
NomSparql.C79_update_careful_partial        propext, Classical.choice, Quot.sound
NomSparql.C79_data_careful_partial          propext, Classical.choice, Quot.sound
NomSparql.C79_delete_violated               propext, Classical.choice, Quot.sound
NomSparql.C79_update_violated               propext, Classical.choice, Quot.sound
NomSparql.C79_query_violated                propext, Classical.choice, Quot.sound
NomSparql.C79_dots_violated                 propext, Classical.choice, Quot.sound
NomSparql.C80_manage_partial                propext, Classical.choice, Quot.sound
NomSparql.C80_query_partial                 propext, Classical.choice, Quot.sound
NomSparql.C80_update_partial                propext, Classical.choice, Quot.sound
NomSparql.C80_addMove_violated              propext, Classical.choice, Quot.sound
NomSparql.C80_ask_violated                  propext, Classical.choice, Quot.sound
NomSparql.C80_query_violated                propext, Classical.choice, Quot.sound
NomSparql.C80_update_violated               propext, Classical.choice, Quot.sound
NomSparql.C81_query_failure_partial         propext, Classical.choice, Quot.sound
NomSparql.C81_update_failure_partial        propext, Classical.choice, Quot.sound
NomSparql.C81_group_failure_partial         propext, Classical.choice, Quot.sound
NomSparql.C81_expression_failure_partial    propext, Classical.choice, Quot.sound
NomSparql.C81_query_no_failure_partial      propext, Classical.choice, Quot.sound
NomSparql.C81_update_no_failure_partial     propext, Classical.choice, Quot.sound
NomSparql.C81_query_error_partial           propext, Classical.choice, Quot.sound
NomSparql.C81_position_violated             propext, Classical.choice, Quot.sound
NomSparql.C81_group_error_partial           propext, Classical.choice, Quot.sound
NomSparql.C81_nested_violated               propext, Classical.choice, Quot.sound
NomSparql.C81_depth_violated                propext, Classical.choice, Quot.sound
NomSparql.C82_expression                    propext, Classical.choice, Quot.sound
NomSparql.C82_group                         propext, Classical.choice, Quot.sound
NomSparql.C82_query                         propext, Classical.choice, Quot.sound
NomSparql.C82_update                        propext, Classical.choice, Quot.sound
NomSparql.C82_expression_tight              propext
NomSparql.C82_update_tight                  propext
NomSparql.C82_expression_least              propext, Quot.sound
NomSparql.C82_update_least                  propext, Quot.sound
NomSparql.C83_expression                    propext, Classical.choice, Quot.sound
NomSparql.C83_group                         propext, Classical.choice, Quot.sound
NomSparql.C83_query                         propext, Classical.choice, Quot.sound
NomSparql.C83_statement                     propext, Classical.choice, Quot.sound
NomSparql.C83_update_partial                propext, Classical.choice, Quot.sound
NomSparql.C83_expression_plain              propext, Classical.choice, Quot.sound
NomSparql.C83_query_plain                   propext, Classical.choice, Quot.sound
NomSparql.C83_update_plain_partial          propext, Classical.choice, Quot.sound
NomSparql.C83_update_violated               propext, Classical.choice, Quot.sound
NomSparql.C83_update_no_bound               propext, Classical.choice, Quot.sound
NomSparql.C83_expression_least              propext, Classical.choice, Quot.sound
NomSparql.C83_expression_least_constant     propext, Classical.choice, Quot.sound
NomSparql.C84_query                         propext, Classical.choice, Quot.sound
NomSparql.C84_update                        propext, Classical.choice, Quot.sound
NomSparql.C84_expression                    propext, Classical.choice, Quot.sound
NomSparql.C84_group                         propext, Classical.choice, Quot.sound
NomSparql.C84_lawful_query                  propext, Classical.choice, Quot.sound
NomSparql.C84_lawful_update                 propext, Classical.choice, Quot.sound
NomSparql.C84_lawful_expression             propext, Classical.choice, Quot.sound
NomSparql.C84_lawful_group                  propext, Classical.choice, Quot.sound
NomSparql.C84_exact_query                   propext, Classical.choice, Quot.sound
NomSparql.C84_exact_update                  propext, Classical.choice, Quot.sound
NomSparql.C84_exact_expression              propext, Classical.choice, Quot.sound
NomSparql.C84_exact_group                   propext, Classical.choice, Quot.sound
NomSparql.C85_query                         propext, Classical.choice, Quot.sound
NomSparql.C85_update                        propext, Classical.choice, Quot.sound
NomSparql.C85_expression                    propext, Classical.choice, Quot.sound
NomSparql.C85_group                         propext, Classical.choice, Quot.sound
NomSparql.C85_query_plain                   propext, Classical.choice, Quot.sound
NomSparql.C85_update_plain                  propext, Classical.choice, Quot.sound
NomSparql.C85_comments_needed               propext
NomSparql.C86_query_shed                    propext, Classical.choice, Quot.sound
NomSparql.C86_query                         propext, Classical.choice, Quot.sound
NomSparql.C86_update_shed                   propext, Classical.choice, Quot.sound
NomSparql.C86_update                        propext, Classical.choice, Quot.sound
NomSparql.C86_expression_shed               propext, Classical.choice, Quot.sound
NomSparql.C86_expression                    propext, Classical.choice, Quot.sound
NomSparql.C86_group_shed                    propext, Classical.choice, Quot.sound
NomSparql.C86_group                         propext, Classical.choice, Quot.sound
NomSparql.C86_same_query                    propext, Classical.choice, Quot.sound
