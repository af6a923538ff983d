{
 "claims": [
  {
   "property": "C01",
   "status": "proved",
   "theorems": [
    "Verif.guid_roundtrip",
    "Verif.guid_text_spec",
    "Verif.guid_text_injective"
   ],
   "note": "All 2^128 ids, any following text; the text spec states the base-64 value of the 22 characters."
  },
  {
   "property": "C02",
   "status": "proved",
   "theorems": [
    "Verif.guid_reread_text",
    "Verif.guid_text_exact_iff",
    "Verif.guid_read_value",
    "Verif.guid_texts_same_id_iff"
   ],
   "note": "All 22-character texts over the alphabet."
  },
  {
   "property": "C03",
   "status": "proved",
   "theorems": [
    "Verif.string_roundtrip",
    "Verif.string_apostrophe_lost",
    "Verif.string_escape_lost",
    "Verif.string_escape_body_lost",
    "Verif.string_second_roundtrip"
   ],
   "note": "The sufficient condition excludes the seven escape bodies; that a complete escape or an apostrophe never comes back is proved for all strings, that a bare body may not is a witness."
  },
  {
   "property": "C04",
   "status": "proved",
   "theorems": [
    "Verif.string_written",
    "Verif.string_written_no_umlaut",
    "Verif.string_escape_reads",
    "Verif.string_escape_shared_backslash",
    "Verif.string_read_no_escape",
    "Verif.string_text_kept"
   ],
   "note": "Escapes read as their character unless two of them share a backslash (exception witnessed)."
  },
  {
   "property": "C05",
   "status": "proved",
   "theorems": [
    "Verif.ref_roundtrip",
    "Verif.ref_too_big",
    "Verif.int_roundtrip",
    "Verif.int32_roundtrip",
    "Verif.bool_roundtrip",
    "Verif.bool_reads_iff",
    "Verif.enum_roundtrip",
    "Verif.enum_names_distinct"
   ],
   "note": "All values; all enumeration tables of the library."
  },
  {
   "property": "C06",
   "status": "proved",
   "theorems": [
    "Verif.attribute_roundtrip",
    "Verif.list_roundtrip",
    "Verif.optional_roundtrip"
   ],
   "note": "For every shape occurring in a row of the table, values without apostrophes in texts, without umlaut escape bodies and without reals in scientific form."
  },
  {
   "property": "C07",
   "status": "proved",
   "theorems": [
    "Verif.entity_reread",
    "Verif.entity_roundtrip",
    "Verif.entity_apostrophe_lost"
   ],
   "note": "All 75 types. Exact for values without apostrophe, escape body and scientific reals; entity_reread says what the others come back as; the apostrophe condition is shown to be needed."
  },
  {
   "property": "C08",
   "status": "proved",
   "theorems": [
    "Verif.entity_keyword",
    "Verif.type_order_irrelevant",
    "Verif.keyword_decides"
   ],
   "note": "For every text and every permutation of the order of types."
  },
  {
   "property": "C09",
   "status": "proved",
   "theorems": [
    "Verif.unknown_kept",
    "Verif.unknown_never_fails",
    "Verif.unknown_keyword_rejected",
    "Verif.unknown_plain_kept",
    "Verif.unknown_roundtrip",
    "Verif.unknown_becomes_known"
   ],
   "note": "Kept for every text no known type accepts. Written back and read again it is the same if its keyword is unknown; unknown_becomes_known shows that the keyword condition is needed."
  },
  {
   "property": "C10",
   "status": "proved",
   "theorems": [
    "Verif.layout_irrelevant",
    "Verif.line_layout_irrelevant",
    "Verif.layout_limits",
    "Verif.file_layout_irrelevant"
   ],
   "note": "For every layout in the sense of Spec/Layout; layout_limits shows standard places where blanks are not accepted."
  },
  {
   "property": "C11",
   "status": "proved",
   "theorems": [
    "Verif.model_roundtrip",
    "Verif.model_roundtrip_exact"
   ],
   "note": "Exact up to the reread of reals and texts described by C03 and C21 and the fraction of a second; model_roundtrip_exact states the class without any loss.  Unknown entities are required to have an unknown keyword and closed comments."
  },
  {
   "property": "C12",
   "status": "proved",
   "theorems": [
    "Verif.line_order_irrelevant",
    "Verif.last_line_wins",
    "Verif.last_lines_decide",
    "Verif.file_reads"
   ],
   "note": "For files whose lines follow the layout relation; the header only has to be one that is read the same whatever follows."
  },
  {
   "property": "C13",
   "status": "proved",
   "theorems": [
    "Verif.verify_iff",
    "Verif.load_refs_good"
   ],
   "note": "All texts; checked references are specified by an inductive relation independent of the reader."
  },
  {
   "property": "C14",
   "status": "proved",
   "theorems": [
    "Verif.load_panics_iff",
    "Verif.load_can_panic",
    "Verif.load_panic_needs",
    "Verif.header_panics_iff",
    "Verif.entity_panics_iff",
    "Verif.line_panics_iff",
    "Verif.verify_panics_iff",
    "Verif.load_dangling_panics"
   ],
   "note": "The claim that loading never panics is refuted by load_can_panic (one file per source); load_panics_iff is the exact condition for every text."
  },
  {
   "property": "C15",
   "status": "proved",
   "theorems": [
    "Verif.load_follow_ref",
    "Verif.load_follow_ref_can_panic"
   ],
   "note": "False as first stated: the typed getter panics exactly when the target was kept as an unknown entity; both halves proved, with a witness file."
  },
  {
   "property": "C16",
   "status": "proved",
   "theorems": [
    "Verif.insert_new_preserves",
    "Verif.insert_new_total",
    "Verif.insert_new_overflow"
   ],
   "note": "Any number of insertions into any map in ascending key order; panics only at the end of the id space."
  },
  {
   "property": "C17",
   "status": "proved",
   "theorems": [
    "Verif.datamap_step",
    "Verif.datamap_refines",
    "Verif.datamap_queries",
    "Verif.datamap_returns"
   ],
   "note": "Refinement to partial functions over all call histories, panics characterised."
  },
  {
   "property": "C18",
   "status": "proved",
   "theorems": [
    "Verif.find_all_exact",
    "Verif.id_of_exact"
   ],
   "note": ""
  },
  {
   "property": "C19",
   "status": "proved",
   "theorems": [
    "Verif.typed_ref_stays_valid",
    "Verif.typed_ref_of_insert_new",
    "Verif.typed_ref_removed"
   ],
   "note": ""
  },
  {
   "property": "C20",
   "status": "proved",
   "theorems": [
    "Verif.real_read_nearest",
    "Verif.nearest_unique",
    "Verif.short_fraction_roundtrip",
    "Verif.special_roundtrip",
    "Verif.plain_real_roundtrip",
    "Verif.special_real_plain",
    "Verif.display_real_roundtrip",
    "Verif.F64.nearest_finite",
    "Verif.F64.real_finite_iff",
    "Verif.F64.short_finite"
   ],
   "note": "All doubles; f64 parsing and printing are modelled exactly (NaN payloads excluded)."
  },
  {
   "property": "C21",
   "status": "proved",
   "theorems": [
    "Verif.sci_real_error",
    "Verif.sci_real_changed"
   ],
   "note": "All doubles of the class; the error is over exact rationals."
  },
  {
   "property": "C22",
   "status": "proved",
   "theorems": [
    "Verif.written_real_stable",
    "Verif.written_real_not_stable",
    "Verif.real_second_roundtrip"
   ],
   "note": "Stability from the first write on is refuted by a witness."
  },
  {
   "property": "C23",
   "status": "proved",
   "theorems": [
    "Verif.header_roundtrip",
    "Verif.header_loses_fraction",
    "Verif.header_roundtrip_limits"
   ],
   "note": "WritableHeader (Spec/Header.lean) is the representable class; the only loss for an otherwise writable header is the fraction of a second; header_roundtrip_limits gives refused, changed and panicking headers outside the class."
  },
  {
   "property": "C24",
   "status": "proved",
   "theorems": [
    "Verif.schema_list_iff",
    "Verif.schema_loaded_named",
    "Verif.schema_rewrite_stable",
    "Verif.schema_written",
    "Verif.schema_unknown_rejected",
    "Verif.schema_name_rejected",
    "Verif.schema_in_files"
   ],
   "note": "schema_list_iff is exact for every text. Rejection at file level (schema_unknown_rejected) is stated for headers laid out as written; schema_loaded_named gives the converse for every layout: a file that loads names its versions by table entries."
  },
  {
   "property": "C25",
   "status": "proved",
   "theorems": [
    "Verif.reload",
    "Verif.reload_exact",
    "Verif.reload_settles",
    "Verif.again_of_plain",
    "Verif.reload_limits",
    "Verif.reload_not_always"
   ],
   "note": "Without conditions the statement is false (reload_not_always; reload_limits has one witness per condition).  reload covers every loadable text of any origin whose unknown entities can be written again and whose year stays between 0 and 9999."
  },
  {
   "property": "C26",
   "status": "proved",
   "theorems": [
    "Verif.time_roundtrip",
    "Verif.stamp_roundtrip",
    "Verif.time_out_of_range"
   ],
   "note": "chrono's range is an external constant."
  },
  {
   "property": "C27",
   "status": "proved",
   "theorems": [
    "Verif.truncated_exponent_entity",
    "Verif.truncated_exponent_line",
    "Verif.truncated_exponent_file",
    "Verif.truncated_exponent_contrast"
   ],
   "note": "Bad/BadLine (Spec/BadReal.lean) describe a line of any known type that is well written up to a number with a truncated exponent, in every attribute position, list depth and inline entity; whatever follows, the entity reader, the line and the whole file fail for good. The contrast theorem shows other malformed numbers do not."
  },
  {
   "property": "C28",
   "status": "proved",
   "theorems": [
    "Verif.Build.script_outcome",
    "Verif.Build.built_loads",
    "Verif.Build.shaded_rejected",
    "Verif.Build.built_refs_stored"
   ],
   "note": "As expected false for shading devices: with one the reader answers VerifyError, without one it returns the model that was built (with reals as they are written). Ids are those returned earlier (Honest); texts without apostrophe, no references inside the person and organisation passed in (Tidy)."
  },
  {
   "property": "C29",
   "status": "proved",
   "theorems": [
    "Verif.Build.storey_contains",
    "Verif.Build.containment_per_storey",
    "Verif.Build.opening_not_contained",
    "Verif.Build.space_not_contained",
    "Verif.Build.containment_not_all",
    "Verif.Build.trace_of_script",
    "Verif.Build.returned_ids"
   ],
   "note": "For every script and every hash order. That all elements are contained is false: openings and spaces are never listed (containment_not_all). storey_contains is the exact list: walls, slabs, roofs, windows and shading devices."
  },
  {
   "property": "C30",
   "status": "proved",
   "theorems": [
    "Verif.Build.type_relations",
    "Verif.Build.element_typed",
    "Verif.Build.typed_exact",
    "Verif.Build.space_untyped",
    "Verif.Build.space_type_missing",
    "Verif.Build.forged_type_lost"
   ],
   "note": "For references returned by earlier calls (Honest); forged_type_lost shows the condition is needed. False for spaces, as expected."
  },
  {
   "property": "C31",
   "status": "proved",
   "theorems": [
    "Verif.Build.material_relations",
    "Verif.Build.element_material",
    "Verif.Build.materials_exact"
   ],
   "note": "One relation per kind of object and material; objects in the order of the calls. Shading devices and types are covered too."
  },
  {
   "property": "C32",
   "status": "proved",
   "theorems": [
    "Verif.Build.spatial_tree",
    "Verif.Build.aggregation_per_parent"
   ],
   "note": ""
  },
  {
   "property": "C33",
   "status": "proved",
   "theorems": [
    "Verif.Build.opening_voids",
    "Verif.Build.window_fills",
    "Verif.Build.openings_exact"
   ],
   "note": "Roofs have no openings in the builder API."
  },
  {
   "property": "C34",
   "status": "proved",
   "theorems": [
    "Verif.Build.hash_order",
    "Verif.Build.hash_order_shows"
   ],
   "note": "Same relations: as many of each sort, the same object on one side, the same objects up to order on the other; global ids and the names of the relations (which carry a walk index) are left aside, since those do depend on the order (hash_order_shows: the stored models differ). For scripts whose references were returned earlier for that kind and that fit into a machine word."
  },
  {
   "property": "C35",
   "status": "proved",
   "theorems": [
    "Verif.Extract.projects_exact",
    "Verif.Extract.relations_of_iff",
    "Verif.Extract.relations_of_mem",
    "Verif.Extract.relations_of_panics",
    "Verif.Extract.contained_structures_exact",
    "Verif.Extract.contained_structures_mem",
    "Verif.Extract.related_type_exact",
    "Verif.Extract.related_type_as_iff",
    "Verif.Extract.related_type_panics",
    "Verif.Extract.related_type_panics_though_listed",
    "Verif.Extract.related_voids_iff",
    "Verif.Extract.related_voids_can_panic",
    "Verif.Extract.related_materials_iff",
    "Verif.Extract.related_constituents_iff",
    "Verif.Extract.load_relations_never_panic",
    "Verif.Extract.load_queries_never_panic",
    "Verif.Extract.built_type",
    "Verif.Extract.built_contained",
    "Verif.Extract.built_tree",
    "Verif.Extract.built_voids"
   ],
   "note": "related_type also panics if a type relation lists the object and the type does not exist, which a loaded file can contain (related_type_panics_though_listed); with existing targets it panics only without a relation (related_type_panics)."
  },
  {
   "property": "C36",
   "status": "proved",
   "theorems": [
    "Verif.all_refs_checked",
    "Verif.load_all_refs_resolve",
    "Verif.unchecked_kinds_exact",
    "Verif.load_with_dangling_unchecked",
    "Verif.Standard.unchecked_references"
   ],
   "note": "Exact list of entity types with unchecked references, and (unchecked_references) of the attributes."
  },
  {
   "property": "C37",
   "status": "proved",
   "theorems": [
    "Verif.Persons.person_calls",
    "Verif.Persons.organization_calls",
    "Verif.Persons.person_and_organization_roles",
    "Verif.Persons.person_calls_panic",
    "Verif.Persons.organization_calls_panic",
    "Verif.Persons.person_and_organization_panic",
    "Verif.Persons.star_panics"
   ],
   "note": "Sequences of every setter of Person, Organization and PersonAndOrganization."
  },
  {
   "property": "C38",
   "status": "proved",
   "theorems": [
    "Verif.Build.storeyTransform_turns",
    "Verif.Build.builderTransform_turns",
    "Verif.Build.transforms_nest"
   ],
   "note": "One call, and sequences of storey transforms. A transform called on the storey builder marks every representation 'Body', also the axis of a wall; that of a wall or slab builder keeps the marks. The directions are passed through normalize (a parameter)."
  },
  {
   "property": "C39",
   "status": "proved",
   "theorems": [
    "Verif.Build.thickness_is_sum",
    "Verif.Build.layerSum_unique",
    "Verif.Build.verticalWall_body",
    "Verif.Build.verticalArbitraryWall_body",
    "Verif.Build.arbitraryWall_body",
    "Verif.Build.horizontalSlab_body",
    "Verif.Build.verticalSlab_body",
    "Verif.Build.arbitrarySlab_body",
    "Verif.Build.roof_body",
    "Verif.Build.shade_body",
    "Verif.Ieee.arithmetic"
   ],
   "note": "f64 addition with rounding, in the order of the layers. Ieee.arithmetic: the model's sum, difference and product of f64 are exactly the ones IEEE 754 prescribes (nearest representable value of the exact result, ties to even, signed zeros, infinities), stated in Spec/Arith.lean without the model's operations."
  },
  {
   "property": "C40",
   "status": "proved",
   "theorems": [
    "Verif.unknown_ends_at_semicolon",
    "Verif.unknown_rest_exposed",
    "Verif.quoted_semicolon_in_file",
    "Verif.doubled_apostrophe_unknown"
   ],
   "note": "Negative finding: for all texts, and with whole files as witnesses."
  },
  {
   "property": "C41",
   "status": "proved",
   "theorems": [
    "Verif.keywords_standard",
    "Verif.attribute_counts",
    "Verif.attribute_counts_ifc4",
    "Verif.standard_lines_unknown"
   ],
   "note": "Relative to the tables in Spec/Names, which were written from knowledge of the standard."
  },
  {
   "property": "C42",
   "status": "proved",
   "theorems": [
    "Verif.Standard.standard_lines_iff",
    "Verif.Standard.standard_line_read",
    "Verif.Standard.standard_line_lost",
    "Verif.Standard.deviating_attributes",
    "Verif.Standard.lenient_attributes"
   ],
   "note": "Exact: all types but 27; the 27 and the 31 attributes responsible are listed. IfcPlaneAngleMeasure, which is no entity of the standard, is excluded. Relative to the attribute table in Spec/Standard."
  },
  {
   "property": "C43",
   "status": "proved",
   "theorems": [
    "Verif.Standard.enum_constants"
   ],
   "note": "Relative to the constants in Spec/Standard."
  },
  {
   "property": "C44",
   "status": "proved",
   "theorems": [
    "Verif.Standard.reference_targets",
    "Verif.Standard.unchecked_references",
    "Verif.Standard.standard_refs_refused",
    "Verif.Standard.wrong_refs_accepted"
   ],
   "note": "Relative to the target table in Spec/Standard; the consequences are shown on whole files."
  },
  {
   "property": "C45",
   "status": "proved",
   "theorems": [
    "Verif.decimal_roundtrip",
    "Verif.decimal_text_stable",
    "Verif.decimal_16_changed",
    "Verif.real_form",
    "Verif.shortest_exists",
    "Verif.shortest_nonzeros",
    "Verif.plain_text_shortest",
    "Verif.real_plain_of_fraction",
    "Verif.real_plain_of_whole",
    "Verif.real_fraction_of_plain"
   ],
   "note": "Exact: real_form, with shortest decimals specified in Spec/Shortest.lean independently of the search in the model. Which of two equally close shortest decimals the standard library prints is left open in the model; the form does not depend on it."
  },
  {
   "property": "C46",
   "status": "proved",
   "theorems": [
    "Verif.written_step_real"
   ],
   "note": ""
  },
  {
   "property": "C47",
   "status": "proved",
   "theorems": [
    "Verif.Build.property_relations"
   ],
   "note": ""
  },
  {
   "property": "C48",
   "status": "proved",
   "theorems": [
    "Verif.time_reads",
    "Verif.instant_unique",
    "Verif.time_panics_iff"
   ],
   "note": "chrono is modelled from its documentation (trusted base)."
  },
  {
   "property": "C49",
   "status": "proved",
   "theorems": [
    "Verif.header_iff",
    "Verif.header_unique",
    "Verif.header_layout_limits"
   ],
   "note": "HeaderText (Spec/HeaderText.lean) lists the tokens of a header in the order of ISO 10303-21 with gaps between them; header_layout_limits records layouts the standard allows and the reader refuses."
  },
  {
   "property": "C50",
   "status": "proved",
   "theorems": [
    "Verif.Build.run_ends",
    "Verif.Build.same_calls_same_ids",
    "Verif.Build.ids_from_calls",
    "Verif.Build.forged_reference_panics"
   ],
   "note": "The plan (Spec/Plan.lean) is worked out from the text of the script alone; same_calls_same_ids compares two programs without it (Spec/SameCalls.lean). Hypotheses: every reference passed was returned by an earlier call for an object of its kind (a forged one can panic, witness), ids fit into a machine word."
  },
  {
   "property": "C51",
   "status": "proved",
   "theorems": [
    "Verif.Build.built_tells",
    "Verif.Build.run_tells",
    "Verif.Build.stands_once"
   ],
   "note": "What is asked for is in Spec/Told.lean, call by call. Names are compared after the escapes of IfcString::from are resolved (C03, C04). normalize is a parameter. Type, material and opening relations are the subject of C29 to C33 and C47. Hypotheses as for C50."
  },
  {
   "property": "C52",
   "status": "proved",
   "theorems": [
    "Verif.Build.global_ids_drawn",
    "Verif.Build.global_ids_once",
    "Verif.Build.global_ids_apart",
    "Verif.Build.global_ids_of"
   ],
   "note": "Drawing no id twice within the run is a hypothesis (Uuid::new_v4 is a parameter)."
  },
  {
   "property": "C53",
   "status": "proved",
   "theorems": [
    "Verif.Setters.call_effect",
    "Verif.Setters.call_aims_exist",
    "Verif.Setters.call_panics_iff",
    "Verif.Setters.line_texts",
    "Verif.Setters.chain_keeps",
    "Verif.Setters.chain_last",
    "Verif.Setters.chain_pushes",
    "Verif.Setters.wall_type_reference"
   ],
   "note": "Persons and organisations: C37. Arguments are taken after their conversion into the primitive types."
  },
  {
   "property": "C54",
   "status": "proved",
   "theorems": [
    "Verif.Setters.made_effect",
    "Verif.Setters.made_argument",
    "Verif.Setters.made_pars",
    "Verif.Setters.made_panics_iff",
    "Verif.Setters.made_then",
    "Verif.Setters.made_mandatory"
   ],
   "note": "Arguments are taken after their conversion into the primitive types. The drawn global id is a parameter."
  },
  {
   "property": "C55",
   "status": "proved",
   "theorems": [
    "Verif.Setters.call_sound",
    "Verif.Setters.call_rejected",
    "Verif.Setters.made_sound",
    "Verif.Setters.made_rejected",
    "Verif.Setters.actor_sound",
    "Verif.Setters.prog_sound",
    "Verif.Setters.prog_verifies",
    "Verif.Setters.prog_refs_stored",
    "Verif.Setters.prog_loads"
   ],
   "note": "The refused pairs are findings: code that compiles and always makes a value the own reader refuses."
  },
  {
   "property": "C56",
   "status": "proved",
   "theorems": [
    "Verif.Setters.tidy_saved",
    "Verif.Setters.tidy_saved_exact",
    "Verif.Setters.call_writable",
    "Verif.Setters.made_writable",
    "Verif.Setters.call_spoils",
    "Verif.Setters.made_spoils",
    "Verif.Setters.actor_spoils",
    "Verif.Setters.spoiled_never_loads"
   ],
   "note": "Programs include the calls on persons and organisations of C37."
  },
  {
   "property": "C57",
   "status": "proved",
   "theorems": [
    "Verif.Report.element_printed",
    "Verif.Report.element_place",
    "Verif.Report.element_direction",
    "Verif.Report.element_context",
    "Verif.Report.body_once",
    "Verif.Report.items_of_iff",
    "Verif.Report.heads_once",
    "Verif.Report.built_layers"
   ],
   "note": "Finding: after two transforms direction finds nothing. Elements stand as wished by C51 (built_tells)."
  },
  {
   "property": "C58",
   "status": "proved",
   "theorems": [
    "Verif.Report.hierarchy_told",
    "Verif.Report.print_items_steady",
    "Verif.Report.loaded_never_panics",
    "Verif.Report.loaded_ends",
    "Verif.Report.items_end_iff",
    "Verif.Report.untyped_wall_panics",
    "Verif.Report.empty_outline_panics",
    "Verif.Report.mixed_outline_panics",
    "Verif.Report.unknown_profile_panics",
    "Verif.Report.inline_map_panics",
    "Verif.Report.loop_never_ends"
   ],
   "note": "The text printed is modelled as the data in it. A recursion that never returns overflows the stack in the code and is `more` for every number of calls in the model."
  },
  {
   "property": "C59",
   "status": "proved",
   "theorems": [
    "Verif.Follow.axis_found",
    "Verif.Follow.rectangle_found",
    "Verif.Follow.outline_found",
    "Verif.Follow.solid_found",
    "Verif.Follow.transform_found",
    "Verif.Follow.mapped_found",
    "Verif.Follow.context_found",
    "Verif.Follow.shapes_found",
    "Verif.Follow.place_found",
    "Verif.Follow.direction_found",
    "Verif.Follow.solid_panics",
    "Verif.Follow.mapped_panics",
    "Verif.Follow.direction_panics",
    "Verif.Follow.place_panics",
    "Verif.Follow.axis_panics",
    "Verif.Follow.rectangle_panics",
    "Verif.Follow.outline_panics",
    "Verif.Follow.transform_panics",
    "Verif.Follow.context_panics",
    "Verif.Follow.shapes_panics"
   ],
   "note": "What is not an extruded solid or mapped item, unknown entities included, counts as an item without direction."
  },
  {
   "property": "C60",
   "status": "proved",
   "theorems": [
    "Verif.Follow.items_said",
    "Verif.Follow.object_said",
    "Verif.Follow.storey_said",
    "Verif.Follow.model_reported",
    "Verif.Follow.report_once"
   ],
   "note": "Without a report the example panics or never returns; which of the two is told by C58 for loaded models."
  },
  {
   "property": "C61",
   "status": "proved",
   "theorems": [
    "Verif.Build.turn_made",
    "Verif.Build.turn_axes"
   ],
   "note": "Quaternion times vector is a parameter here; C71 says what it gives."
  },
  {
   "property": "C62",
   "status": "proved",
   "theorems": [
    "Verif.Ieee.division_root",
    "Verif.Build.normalized",
    "Verif.Build.normalized_or",
    "Verif.Build.normalized_plane",
    "Verif.Build.heading_length",
    "Verif.Build.vanishing",
    "Verif.Build.overflowing",
    "Verif.Build.subnormal_off",
    "Verif.Build.axes_stay",
    "Verif.Build.operator_heading"
   ],
   "note": "The formula of normalize is assumed, the crate's source is not in the repository. Of vectors whose largest component lies between 2^-538 and 2^-511 only a witness of a wrong length is given; between 2^511 and 2^512 the result is the direction or the zero vector."
  },
  {
   "property": "C63",
   "status": "proved",
   "theorems": [
    "Verif.Build.roof_calls",
    "Verif.Build.roof_example",
    "Verif.Build.builder_calls",
    "Verif.Build.builder_example_rejected",
    "Verif.Build.unshaded_calls",
    "Verif.Build.unshaded_example",
    "Verif.Setters.building_example",
    "Verif.Setters.building_ids",
    "Verif.Setters.building_loads",
    "Verif.Setters.building_rounded",
    "Verif.Setters.building_not_shown",
    "Verif.Setters.building_wall"
   ],
   "note": "The formula of normalize is assumed as in C62. Finding: the reader rejects the file written by examples/builder.rs."
  },
  {
   "property": "C64",
   "status": "proved",
   "theorems": [
    "Verif.entity_says",
    "Verif.line_says",
    "Verif.load_says",
    "Verif.loaded_entity_stands",
    "Verif.free_lists"
   ],
   "note": "Soundness of the reader for every text; completeness for the standard layouts is C10, C11 and C23. Finding: missing and trailing commas in lists are accepted, and a doubled apostrophe splits a text in a list into two."
  },
  {
   "property": "C65",
   "status": "proved",
   "theorems": [
    "Verif.Exchange.string_step",
    "Verif.Exchange.line_step",
    "Verif.Exchange.plane_angle_no_line",
    "Verif.Exchange.file_step",
    "Verif.Exchange.accent_no_string",
    "Verif.Exchange.infinite_no_line",
    "Verif.Exchange.inline_no_line",
    "Verif.Exchange.no_author_no_list"
   ],
   "note": "The grammar in Spec/Exchange.lean is written from knowledge of ISO 10303-21. Necessity of the conditions is shown per line, not for the file as a whole. Findings: letters beyond ASCII other than the seven German ones, infinite and undefined reals, inline entities and a stored plane angle are written in forms the grammar does not have."
  },
  {
   "property": "C66",
   "status": "proved",
   "theorems": [
    "Verif.Standard.conforming_iff",
    "Verif.Standard.miscounted_never",
    "Verif.Standard.layer_never",
    "Verif.Standard.boolean_never"
   ],
   "note": "The forms in Spec/Conform.lean and Spec/Standard.lean are written from knowledge of IFC4 ADD2; lengths of texts, bounds on numbers, upper bounds on lists and rules between attributes are left out. Findings: booleans are written in a form the standard does not have; walls hold their type where the standard has the predefined type; the town of a postal address is a list of texts."
  },
  {
   "property": "C67",
   "status": "proved",
   "theorems": [
    "Verif.Build.built_known",
    "Verif.Build.built_line_step",
    "Verif.Build.built_step",
    "Verif.Build.built_conforming",
    "Verif.Build.built_conforming_x3",
    "Verif.Build.sample_lines",
    "Verif.Build.odd_lines"
   ],
   "note": "No assumption on ids passed on, clock or hash order. Of IFC4X3 ADD2 only the differences that concern the types the builders write are in Spec/Legible.lean. Finding: a built file with a material layer, an element type without elements or a storey without elements always has lines outside the standard."
  },
  {
   "property": "C68",
   "status": "proved",
   "theorems": [
    "Verif.Derive.field_checked",
    "Verif.Derive.field_demand",
    "Verif.Derive.field_run",
    "Verif.Derive.field_inherited",
    "Verif.Derive.field_panic",
    "Verif.Derive.expand_panic",
    "Verif.Derive.expand_order",
    "Verif.Derive.verify_generated",
    "Verif.Derive.verify_dummy",
    "Verif.Derive.crate_accepted",
    "Verif.Derive.crate_types",
    "Verif.Derive.unguarded_fields",
    "Verif.Derive.severed_structs",
    "Verif.Derive.defines_unchecked"
   ],
   "note": "The declarations in Model/Declarations.lean are generated from the sources; that each struct is read and written in the order of its fields was checked by script. Generics are passed through by the macro and left out. Finding: no relation and no property set checks its owner history, since the embedded root lacks `inherited`."
  },
  {
   "property": "C69",
   "status": "proved",
   "theorems": [
    "Verif.Records.record_read",
    "Verif.Records.lines_read",
    "Verif.Records.standard_file_read",
    "Verif.Records.standard_file_loads",
    "Verif.Records.loose_unknown",
    "Verif.Records.trapped_record",
    "Verif.Records.instances_lines",
    "Verif.Records.foreign_lines",
    "Verif.Records.foreign_usual",
    "Verif.Records.foreign_loaded",
    "Verif.Records.standard_file_exceptions"
   ],
   "note": "Headers: those of C49. The grammar of instances is that of ISO 10303-21 edition 2, complex instances and user-defined keywords included. Known types with a blank before the parenthesis or the semicolon are kept as unknown (loose_unknown; foreign_loaded #9). A known type need not be in standard layout to be taken (Says, C64). Findings: a semicolon in a text of an unknown type makes a correct file unreadable; so does a number with a leading zero."
  },
  {
   "property": "C70",
   "status": "proved",
   "theorems": [
    "Verif.Records.string_resaved",
    "Verif.Records.record_resaved",
    "Verif.Records.unknown_resaved",
    "Verif.Records.standard_file_resaved",
    "Verif.Records.standard_file_again",
    "Verif.Records.foreign_resaved",
    "Verif.Records.overflow_resaved",
    "Verif.Records.refused_after_saving"
   ],
   "note": "Files as in C69. Which reals overflow is said by F64.real_finite_iff (C20). Which entry a line becomes on the second load is that of C69 (and of C25 where the unknown records stay unknown). Findings: a real too large for a double is written outside the format; a known type written with a blank before the semicolon is checked only after a save, so that a loadable file can become one that is refused."
  },
  {
   "property": "C71",
   "status": "proved",
   "theorems": [
    "Verif.Build.turned_frame",
    "Verif.Build.turned_cases",
    "Verif.Build.rotation_turns",
    "Verif.Build.product_turns",
    "Verif.Build.rotated_parameter",
    "Verif.Build.rotated_parameter_twice",
    "Verif.Build.zero_rotation",
    "Verif.Build.about_axes",
    "Verif.Build.example_axes",
    "Verif.Build.stored_rotation",
    "Verif.Build.stored_product",
    "Verif.Build.rotation_stored"
   ],
   "note": "The formulas of DQuat are those of glam's plain (non-SIMD) code, from knowledge of that crate; it is not in /repo. The accuracy of sine and cosine is a hypothesis (Accurate); that functions meet it is shown by an example."
  },
  {
   "property": "C72",
   "status": "proved",
   "theorems": [
    "Verif.Build.built_signed",
    "Verif.Build.built_interpreted",
    "Verif.Build.built_kinds",
    "Verif.Build.full_kinds"
   ],
   "note": "No assumption on the ids a program passes on. Which objects a relation relates is C29-C33 and C47. Finding: aggregations, property sets and their relations are the only roots without an owner history."
  },
  {
   "property": "C73",
   "status": "proved",
   "theorems": [
    "Verif.Report.saved_report",
    "Verif.Report.reloaded_report",
    "Verif.Report.saved_queries",
    "Verif.Report.saved_element",
    "Verif.Report.told_through_file",
    "Verif.Report.rounded_counts",
    "Verif.Report.height_changes"
   ],
   "note": "The hypothesis on models is that of C11 (Savable), that on texts is that of C25; what a real is read back as is C03 and C21. Finding: a wall built with height 1/3 is read back with height 0.333333333333333."
  },
  {
   "property": "C74",
   "status": "proved",
   "theorems": [
    "Verif.Edits.edit_local",
    "Verif.Edits.call_local",
    "Verif.Edits.new_line",
    "Verif.Edits.untouched_lines",
    "Verif.Edits.same_text",
    "Verif.Edits.set_loads_iff",
    "Verif.Edits.added_loads_iff",
    "Verif.Edits.removed_loads",
    "Verif.Edits.point_needed"
   ],
   "note": "For loading the hypotheses on the text are those of C25, and the entry put in must itself be writable (C07, C09). Finding: a file from which an entry was removed that others refer to makes the loader panic, it is not refused with an error."
  },
  {
   "property": "C75",
   "status": "proved",
   "theorems": [
    "Verif.Output.output_report",
    "Verif.Output.output_steady",
    "Verif.Output.items_shown_iff",
    "Verif.Output.output_shown_iff",
    "Verif.Output.built_shown",
    "Verif.Output.built_output",
    "Verif.Output.sides_hidden",
    "Verif.Output.untyped_wall_rows",
    "Verif.Output.item_line_first",
    "Verif.Output.loop_prints_on"
   ],
   "note": "A line is its indentation and the values put into it; the words around them and the notation of values are not modelled. Finding: the sides of a rectangle without a position are not printed."
  },
  {
   "property": "C76",
   "status": "proved",
   "theorems": [
    "Verif.Cut.mark_needed",
    "Verif.Cut.mark_needed_calm",
    "Verif.Cut.cut_not_loaded",
    "Verif.Cut.cut_newline",
    "Verif.Cut.cut_between_lines",
    "Verif.Cut.appended",
    "Verif.Cut.joined",
    "Verif.Cut.cut_loaded",
    "Verif.Cut.cut_panics"
   ],
   "note": "For a cut at an arbitrary place the alternative is a panic of the parser, which can happen (cut_panics); in no case is a model returned. Finding: the unknown-entity reader does not heed apostrophes, so a file cut inside a text containing the mark can load as another model."
  },
  {
   "property": "C77",
   "status": "proved",
   "theorems": [
    "Verif.Numbers.report_same",
    "Verif.Numbers.extended",
    "Verif.Numbers.queries_same",
    "Verif.Numbers.element_same",
    "Verif.Numbers.check_same",
    "Verif.Numbers.saved_renumbered",
    "Verif.Numbers.gaps_closed",
    "Verif.Numbers.lines_renumbered",
    "Verif.Numbers.order_matters"
   ],
   "note": "The texts of unknown entities are not renumbered; nothing in the crate reads references out of them. queries_same and element_same speak of renumberings that keep all numbers apart; extended shows that every order-keeping renumbering of the occurring ids gives the same model as such a one."
  },
  {
   "property": "C78",
   "status": "proved",
   "theorems": [
    "Verif.Beside.queries_stay",
    "Verif.Beside.element_stays",
    "Verif.Beside.report_stays",
    "Verif.Beside.refs_stay",
    "Verif.Beside.check_both",
    "Verif.Beside.reports_beside",
    "Verif.Beside.saved_beside",
    "Verif.Beside.files_together",
    "Verif.Beside.silence_needed",
    "Verif.Beside.newness_needed"
   ],
   "note": "In reports_beside and saved_beside all ids of the second model are greater than those of the first; with ids by turns the projects would be reported by turns. The texts of unknown entities are kept as they are."
  },
  {
   "property": "C79",
   "status": "proved",
   "theorems": [
    "Verif.SameFile.same_file",
    "Verif.SameFile.same_file_exact",
    "Verif.SameFile.same_file_iff",
    "Verif.SameFile.same_attribute_iff",
    "Verif.SameFile.same_string",
    "Verif.SameFile.same_real",
    "Verif.SameFile.same_file_differs",
    "Verif.SameFile.same_file_unsavable"
   ],
   "note": "Savable is the hypothesis of C11. What a real or a text is written as is C03, C20, C21 and C45. The same_file_unsavable models are made in memory: Savable excludes an unknown entry with a known keyword and a text with an apostrophe."
  },
  {
   "property": "C80",
   "status": "proved",
   "theorems": [
    "Verif.Lines.line_ends",
    "Verif.Lines.saved_line_ends",
    "Verif.Lines.saved_unbroken",
    "Verif.Lines.loaded_unbroken",
    "Verif.Lines.texts_change",
    "Verif.Lines.blank_needed",
    "Verif.Lines.begins",
    "Verif.Lines.not_begun",
    "Verif.Lines.marked"
   ],
   "note": "Files are those of C10 (FileText) with a header of C49 (HeaderText). Findings: a file with a byte order mark is not loaded; an unknown entry that stands in several lines is saved with the line ends of its file, so a saved file may have two kinds of line ends."
  },
  {
   "property": "C81",
   "status": "proved",
   "theorems": [
    "Verif.Hand.commented_out",
    "Verif.Hand.taken_out",
    "Verif.Hand.overridden",
    "Verif.Hand.written_in",
    "Verif.Hand.anywhere",
    "Verif.Hand.not_commented_out",
    "Verif.Hand.comes_back"
   ],
   "note": "Files are those of C10 (FileText) with a header of C49 (HeaderText). Needed is that of C74, GoodTarget that of C13."
  },
  {
   "property": "C82",
   "status": "proved",
   "theorems": [
    "Verif.Hand.rewritten",
    "Verif.Hand.misspelled",
    "Verif.Hand.lost",
    "Verif.Hand.only_unknown",
    "Verif.Hand.other_names"
   ],
   "note": "Files are those of C10 (FileText) with a header of C49 (HeaderText). Finding: a blank between the type name and the parenthesis, which the file format allows, silently makes an entry unknown."
  },
  {
   "property": "C83",
   "status": "proved",
   "theorems": [
    "Verif.Apart.header_replaced",
    "Verif.Apart.header_kept",
    "Verif.Apart.loaded_parts",
    "Verif.Apart.rest_replaced",
    "Verif.Apart.schema_no_matter"
   ],
   "note": "Headers are those of C49 (HeaderText), which are all the header reader takes. Finding: a file that names IFC2X3 is read with the same attribute lists as one that names IFC4."
  },
  {
   "property": "C84",
   "status": "proved",
   "theorems": [
    "Verif.OnDisk.of_utf8",
    "Verif.OnDisk.otherwise",
    "Verif.OnDisk.outcome_iff",
    "Verif.OnDisk.one_text",
    "Verif.OnDisk.saved",
    "Verif.OnDisk.ascii",
    "Verif.OnDisk.alone",
    "Verif.OnDisk.latin1_refused",
    "Verif.OnDisk.utf16_refused",
    "Verif.OnDisk.marked"
   ],
   "note": "fs::read_to_string is external: assumed to give the text whose UTF-8 form the bytes are, or an error.."
  },
  {
   "property": "C85",
   "status": "proved",
   "theorems": [
    "Verif.CheckError.told_verdict",
    "Verif.CheckError.error_true",
    "Verif.CheckError.error_given",
    "Verif.CheckError.progress",
    "Verif.CheckError.refused_told",
    "Verif.CheckError.missing_hides"
   ],
   "note": "The words of the message are not modelled; the name of the attribute is in C86. That the checks of an entry are those the derive macro generates is C68."
  },
  {
   "property": "C86",
   "status": "proved",
   "theorems": [
    "Verif.Derive.message_error",
    "Verif.Derive.message_true",
    "Verif.Derive.names_apart",
    "Verif.Derive.load_message",
    "Verif.Derive.wall_names"
   ],
   "note": "The words between the names and the module path in front of the type found are not modelled. The declarations are those of C68."
  }
 ]
}