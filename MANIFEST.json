{
 "claims": [
  {
   "property": "C01",
   "status": "proved",
   "theorems": [
    "PinProject.C01_argument_grammar",
    "PinProject.C01_rejects_everything_else"
   ],
   "note": ""
  },
  {
   "property": "C02",
   "status": "proved",
   "theorems": [
    "PinProject.C02_order_irrelevant"
   ],
   "note": ""
  },
  {
   "property": "C03",
   "status": "proved",
   "theorems": [
    "PinProject.C03_exclusive_rejected",
    "PinProject.C03_accepted_not_both"
   ],
   "note": ""
  },
  {
   "property": "C04",
   "status": "proved",
   "theorems": [
    "PinProject.C04_names_distinct",
    "PinProject.C04_own_name_rejected"
   ],
   "note": ""
  },
  {
   "property": "C05",
   "status": "proved",
   "theorems": [
    "PinProject.C05_attribute_stage",
    "PinProject.C05_transparent",
    "PinProject.C05_written",
    "PinProject.C05_config",
    "PinProject.C05_removed",
    "PinProject.C05_duplicated",
    "PinProject.C05_only_carried"
   ],
   "note": ""
  },
  {
   "property": "C06",
   "status": "proved",
   "theorems": [
    "PinProject.C06_legal",
    "PinProject.C06_illegal_rejected",
    "PinProject.C06_field_types"
   ],
   "note": ""
  },
  {
   "property": "C07",
   "status": "proved",
   "theorems": [
    "PinProject.C07_accepted_iff",
    "PinProject.C07_rejects",
    "PinProject.C07_written_iff",
    "PinProject.C07_source_iff"
   ],
   "note": ""
  },
  {
   "property": "C08",
   "status": "proved",
   "theorems": [
    "PinProject.C08_packed_rejected",
    "PinProject.C08_accepted_reprs",
    "PinProject.C08_other_repr_ignored"
   ],
   "note": ""
  },
  {
   "property": "C09",
   "status": "proved",
   "theorems": [
    "PinProject.C09_accepted_iff",
    "PinProject.C09_references_aligned",
    "PinProject.C09_check_needed"
   ],
   "note": ""
  },
  {
   "property": "C10",
   "status": "proved",
   "theorems": [
    "PinProject.C10_project"
   ],
   "note": ""
  },
  {
   "property": "C11",
   "status": "proved",
   "theorems": [
    "PinProject.C11_project_ref",
    "PinProject.C11_receivers"
   ],
   "note": ""
  },
  {
   "property": "C12",
   "status": "proved",
   "theorems": [
    "PinProject.C12_exactly_one_arm"
   ],
   "note": ""
  },
  {
   "property": "C13",
   "status": "proved",
   "theorems": [
    "PinProject.C13_no_alias"
   ],
   "note": ""
  },
  {
   "property": "C14",
   "status": "proved",
   "theorems": [
    "PinProject.C14_mirrors",
    "PinProject.C14_project_fits",
    "PinProject.C14_replace_fits"
   ],
   "note": ""
  },
  {
   "property": "C15",
   "status": "proved",
   "theorems": [
    "PinProject.C15_visibility",
    "PinProject.C15_exposed",
    "PinProject.C15_crate_only"
   ],
   "note": ""
  },
  {
   "property": "C16",
   "status": "proved",
   "theorems": [
    "PinProject.C16_enum_unnamed_replace_rejected",
    "PinProject.C16_struct_methods",
    "PinProject.C16_enum_methods",
    "PinProject.C16_written",
    "PinProject.C16_no_other_method",
    "PinProject.C16_once"
   ],
   "note": ""
  },
  {
   "property": "C17",
   "status": "proved",
   "theorems": [
    "PinProject.C17_exposed_names",
    "PinProject.C17_unnamed_in_scope",
    "PinProject.C17_named"
   ],
   "note": ""
  },
  {
   "property": "C18",
   "status": "proved",
   "theorems": [
    "PinProject.C18_lifetime_fresh",
    "PinProject.C18_lifetime_ne"
   ],
   "note": ""
  },
  {
   "property": "C19",
   "status": "proved",
   "theorems": [
    "PinProject.C19_impl_header",
    "PinProject.C19_generics"
   ],
   "note": ""
  },
  {
   "property": "C20",
   "status": "proved",
   "theorems": [
    "PinProject.C20_project_replace"
   ],
   "note": ""
  },
  {
   "property": "C21",
   "status": "proved",
   "theorems": [
    "PinProject.C21_pinned_in_place",
    "PinProject.C21_exactly_once"
   ],
   "note": ""
  },
  {
   "property": "C22",
   "status": "proved",
   "theorems": [
    "PinProject.C22_one_panic",
    "PinProject.C22_second_panic_aborts",
    "PinProject.C22_never_stuck"
   ],
   "note": ""
  },
  {
   "property": "C23",
   "status": "proved",
   "theorems": [
    "PinProject.C23_agrees_with_set"
   ],
   "note": ""
  },
  {
   "property": "C24",
   "status": "proved",
   "theorems": [
    "PinProject.C24_exactly_one",
    "PinProject.C24_no_double_drop",
    "PinProject.C24_no_leak",
    "PinProject.C24_status"
   ],
   "note": ""
  },
  {
   "property": "C25",
   "status": "proved",
   "theorems": [
    "PinProject.C25_default_unpin"
   ],
   "note": ""
  },
  {
   "property": "C26",
   "status": "proved",
   "theorems": [
    "PinProject.C26_not_unpin",
    "PinProject.C26_like_phantom_pinned"
   ],
   "note": ""
  },
  {
   "property": "C27",
   "status": "proved",
   "theorems": [
    "PinProject.C27_unsafe_unpin",
    "PinProject.C27_no_impl"
   ],
   "note": ""
  },
  {
   "property": "C28",
   "status": "proved",
   "theorems": [
    "PinProject.C28_one_unpin_impl",
    "PinProject.C28_user_unpin_rejected"
   ],
   "note": ""
  },
  {
   "property": "C29",
   "status": "proved",
   "theorems": [
    "PinProject.C29_rejected",
    "PinProject.C29_allowed"
   ],
   "note": ""
  },
  {
   "property": "C30",
   "status": "proved",
   "theorems": [
    "PinProject.C30_drop_rejected_iff",
    "PinProject.C30_pinned_drop_rejected",
    "PinProject.C30_unsized"
   ],
   "note": ""
  },
  {
   "property": "C31",
   "status": "proved",
   "theorems": [
    "PinProject.C31_rejected",
    "PinProject.C31_required",
    "PinProject.C31_not_required"
   ],
   "note": ""
  },
  {
   "property": "C32",
   "status": "proved",
   "theorems": [
    "PinProject.C32_pinned_drop_first",
    "PinProject.C32_outcome",
    "PinProject.C32_only_with_argument"
   ],
   "note": ""
  },
  {
   "property": "C33",
   "status": "proved",
   "theorems": [
    "PinProject.C33_accepts_iff",
    "PinProject.C33_documented",
    "PinProject.C33_not_only_documented"
   ],
   "note": "Exact characterisation; C33_not_only_documented shows that forms outside the documented one are accepted too."
  },
  {
   "property": "C34",
   "status": "proved",
   "theorems": [
    "PinProject.C34_expansion",
    "PinProject.C34_shadowed"
   ],
   "note": ""
  },
  {
   "property": "C35",
   "status": "proved",
   "theorems": [
    "PinProject.C35_parts",
    "PinProject.C35_rewritten",
    "PinProject.C35_none_left",
    "PinProject.C35_untouched",
    "PinProject.C35_qself_lost",
    "PinProject.C35_capture"
   ],
   "note": "Exact: C35_rewritten and C35_none_left are iffs. C35_qself_lost and C35_capture are witnesses of the two exceptions named in the statement."
  },
  {
   "property": "C36",
   "status": "proved",
   "theorems": [
    "PinProject.C36_panics_iff",
    "PinProject.C36_rejected",
    "PinProject.C36_never_silent",
    "PinProject.C36_panics"
   ],
   "note": "Exact: C36_panics_iff gives the condition of the one exception, C36_panics a witness."
  },
  {
   "property": "C37",
   "status": "proved",
   "theorems": [
    "PinProject.C37_rewrites",
    "PinProject.C37_none_left",
    "PinProject.C37_untouched",
    "PinProject.C37_idempotent",
    "PinProject.C37_macro"
   ],
   "note": ""
  },
  {
   "property": "C38",
   "status": "proved",
   "theorems": [
    "PinProject.C38_rewritten",
    "PinProject.C38_left_iff",
    "PinProject.C38_resolved",
    "PinProject.C38_untouched",
    "PinProject.C38_kept"
   ],
   "note": "Exact: C38_left_iff gives the condition under which Self is kept, C38_kept a witness."
  },
  {
   "property": "C39",
   "status": "proved",
   "theorems": [
    "PinProject.C39_pinned_stays"
   ],
   "note": ""
  },
  {
   "property": "C40",
   "status": "proved",
   "theorems": [
    "PinProject.C40_not_invalidated",
    "PinProject.C40_ends_properly"
   ],
   "note": ""
  },
  {
   "property": "C41",
   "status": "proved",
   "theorems": [
    "PinProject.C41_tuple_bindings"
   ],
   "note": ""
  },
  {
   "property": "C42",
   "status": "proved",
   "theorems": [
    "PinProject.C42_replace_compiles_iff",
    "PinProject.C42_counterexample"
   ],
   "note": "C42_counterexample is a witness of the exception the statement names."
  },
  {
   "property": "C43",
   "status": "proved",
   "theorems": [
    "PinProject.C43_visibility",
    "PinProject.C43_verbatim_iff",
    "PinProject.C43_counterexample"
   ],
   "note": "C43_verbatim_iff is exact; C43_counterexample is a witness of the exception."
  },
  {
   "property": "C44",
   "status": "proved",
   "theorems": [
    "PinProject.C44_generated_names",
    "PinProject.C44_names_distinct_iff",
    "PinProject.C44_no_raw",
    "PinProject.C44_counterexample",
    "PinProject.C44_raw_counterexample"
   ],
   "note": ""
  },
  {
   "property": "C45",
   "status": "proved",
   "theorems": [
    "PinProject.C45_exposed_absolute"
   ],
   "note": ""
  },
  {
   "property": "C46",
   "status": "proved",
   "theorems": [
    "PinProject.C46_redeclares_iff",
    "PinProject.C46_only_pin",
    "PinProject.C46_counterexample"
   ],
   "note": "C46_redeclares_iff is exact; C46_counterexample is a witness of the exception."
  },
  {
   "property": "C47",
   "status": "proved",
   "theorems": [
    "PinProject.C47_derive_panics_iff",
    "PinProject.C47_attribute_never_panics",
    "PinProject.C47_never_panics"
   ],
   "note": ""
  },
  {
   "property": "C48",
   "status": "proved",
   "theorems": [
    "PinProject.C48_traits",
    "PinProject.C48_impl_headers"
   ],
   "note": ""
  },
  {
   "property": "C49",
   "status": "proved",
   "theorems": [
    "PinProject.C49_signatures"
   ],
   "note": ""
  },
  {
   "property": "C50",
   "status": "proved",
   "theorems": [
    "PinProject.C50_scope_names",
    "PinProject.C50_not_captured",
    "PinProject.C50_captured"
   ],
   "note": "C50_captured is a witness of the exception the statement names."
  },
  {
   "property": "C51",
   "status": "proved",
   "theorems": [
    "PinProject.C51_other_attributes",
    "PinProject.C51_same_expansion"
   ],
   "note": ""
  },
  {
   "property": "C52",
   "status": "proved",
   "theorems": [
    "PinProject.C52_methods_typed",
    "PinProject.C52_impls_typed"
   ],
   "note": ""
  },
  {
   "property": "C53",
   "status": "proved",
   "theorems": [
    "PinProject.C53_types",
    "PinProject.C53_runtime",
    "PinProject.C53_impls"
   ],
   "note": ""
  },
  {
   "property": "C54",
   "status": "proved",
   "theorems": [
    "PinProject.C54_one_place"
   ],
   "note": ""
  },
  {
   "property": "C55",
   "status": "proved",
   "theorems": [
    "PinProject.C55_types",
    "PinProject.C55_methods",
    "PinProject.C55_impls"
   ],
   "note": ""
  },
  {
   "property": "C56",
   "status": "proved",
   "theorems": [
    "PinProject.C56_impls",
    "PinProject.C56_types"
   ],
   "note": ""
  },
  {
   "property": "C57",
   "status": "proved",
   "theorems": [
    "PinProject.C57_types",
    "PinProject.C57_impls"
   ],
   "note": ""
  },
  {
   "property": "C58",
   "status": "proved",
   "theorems": [
    "PinProject.C58_project",
    "PinProject.C58_project_ref",
    "PinProject.C58_project_replace",
    "PinProject.C58_drop",
    "PinProject.C58_same_machine",
    "PinProject.C58_replace_agrees",
    "PinProject.C58_drop_agrees"
   ],
   "note": ""
  },
  {
   "property": "C59",
   "status": "proved",
   "theorems": [
    "PinProject.C59_impls",
    "PinProject.C59_runtime",
    "PinProject.C59_pinned_drop",
    "PinProject.C59_documented"
   ],
   "note": ""
  },
  {
   "property": "C60",
   "status": "proved",
   "theorems": [
    "PinProject.C60_no_use_after_drop",
    "PinProject.C60_no_double_drop",
    "PinProject.C60_pinned_drop_only",
    "PinProject.C60_annotated"
   ],
   "note": ""
  },
  {
   "property": "C61",
   "status": "proved",
   "theorems": [
    "PinProject.C61_parts_destroyed",
    "PinProject.C61_not_lost",
    "PinProject.C61_no_remains"
   ],
   "note": ""
  },
  {
   "property": "C62",
   "status": "proved",
   "theorems": [
    "PinProject.C62_auto",
    "PinProject.C62_send_sync",
    "PinProject.C62_unpin"
   ],
   "note": ""
  },
  {
   "property": "C63",
   "status": "proved",
   "theorems": [
    "PinProject.C63_never_silent"
   ],
   "note": ""
  },
  {
   "property": "C64",
   "status": "proved",
   "theorems": [
    "PinProject.C64_grammar"
   ],
   "note": ""
  },
  {
   "property": "C65",
   "status": "proved",
   "theorems": [
    "PinProject.C65_no_interference",
    "PinProject.C65_hosts",
    "PinProject.C65_universe"
   ],
   "note": ""
  },
  {
   "property": "C66",
   "status": "proved",
   "theorems": [
    "PinProject.C66_derives",
    "PinProject.C66_only_active",
    "PinProject.C66_inactive"
   ],
   "note": ""
  },
  {
   "property": "C67",
   "status": "proved",
   "theorems": [
    "PinProject.C67_variance",
    "PinProject.C67_borrow"
   ],
   "note": ""
  },
  {
   "property": "C68",
   "status": "proved",
   "theorems": [
    "PinProject.C68_types",
    "PinProject.C68_impls"
   ],
   "note": ""
  },
  {
   "property": "C69",
   "status": "proved",
   "theorems": [
    "PinProject.C69_recursive",
    "PinProject.C69_recursive_iff"
   ],
   "note": ""
  },
  {
   "property": "C70",
   "status": "proved",
   "theorems": [
    "PinProject.C70_attribute",
    "PinProject.C70_derive",
    "PinProject.C70_pinned_drop",
    "PinProject.C70_args"
   ],
   "note": ""
  },
  {
   "property": "C71",
   "status": "proved",
   "theorems": [
    "PinProject.C71_args",
    "PinProject.C71_attribute",
    "PinProject.C71_repr",
    "PinProject.C71_pinned_drop"
   ],
   "note": ""
  },
  {
   "property": "C72",
   "status": "proved",
   "theorems": [
    "PinProject.C72_history",
    "PinProject.C72_project",
    "PinProject.C72_project_ref"
   ],
   "note": ""
  },
  {
   "property": "C73",
   "status": "proved",
   "theorems": [
    "PinProject.C73_attributes",
    "PinProject.C73_pinned_drop",
    "PinProject.C73_covered",
    "PinProject.C73_types",
    "PinProject.C73_method_types",
    "PinProject.C73_methods",
    "PinProject.C73_packed"
   ],
   "note": ""
  },
  {
   "property": "C74",
   "status": "proved",
   "theorems": [
    "PinProject.C74_resolved",
    "PinProject.C74_pinned_drop"
   ],
   "note": ""
  },
  {
   "property": "C75",
   "status": "proved",
   "theorems": [
    "PinProject.C75_unsafe",
    "PinProject.C75_unsafe_pinned_drop",
    "PinProject.C75_functions",
    "PinProject.C75_hygiene",
    "PinProject.C75_replace"
   ],
   "note": ""
  },
  {
   "property": "C76",
   "status": "proved",
   "theorems": [
    "PinProject.C76_grammar_dummy",
    "PinProject.C76_grammar",
    "PinProject.C76_pub_self",
    "PinProject.C76_grammar_pinned_drop"
   ],
   "note": ""
  },
  {
   "property": "C77",
   "status": "proved",
   "theorems": [
    "PinProject.C77_pinned_drop",
    "PinProject.C77_dummy",
    "PinProject.C77_reads",
    "PinProject.C77_one_reading",
    "PinProject.C77_body_unique"
   ],
   "note": ""
  },
  {
   "property": "C78",
   "status": "proved",
   "theorems": [
    "PinProject.C78_origin"
   ],
   "note": ""
  },
  {
   "property": "C79",
   "status": "proved",
   "theorems": [
    "PinProject.C79_cells",
    "PinProject.C79_project_ref"
   ],
   "note": ""
  },
  {
   "property": "C80",
   "status": "proved",
   "theorems": [
    "PinProject.Locate.C80_attribute",
    "PinProject.Locate.C80_derive",
    "PinProject.Locate.C80_pinned_drop",
    "PinProject.Locate.C80_args"
   ],
   "note": ""
  },
  {
   "property": "C81",
   "status": "proved",
   "theorems": [
    "PinProject.C81_projections",
    "PinProject.C81_replace",
    "PinProject.C81_rejected"
   ],
   "note": ""
  },
  {
   "property": "C82",
   "status": "proved",
   "theorems": [
    "PinProject.C82_calls",
    "PinProject.C82_not_user"
   ],
   "note": ""
  },
  {
   "property": "C83",
   "status": "proved",
   "theorems": [
    "PinProject.C83_borrowed",
    "PinProject.C83_owned",
    "PinProject.C83_annotated",
    "PinProject.C83_pinned_drop"
   ],
   "note": ""
  },
  {
   "property": "C84",
   "status": "proved",
   "theorems": [
    "PinProject.C84_reached",
    "PinProject.C84_unaffected",
    "PinProject.C84_only"
   ],
   "note": ""
  },
  {
   "property": "C85",
   "status": "proved",
   "theorems": [
    "PinProject.C85_aliasing",
    "PinProject.C85_project_ref",
    "PinProject.C85_project_ref_returns",
    "PinProject.C85_project",
    "PinProject.C85_project_ref_shared"
   ],
   "note": ""
  },
  {
   "property": "C86",
   "status": "proved",
   "theorems": [
    "PinProject.C86_docs",
    "PinProject.C86_pinned_drop"
   ],
   "note": ""
  },
  {
   "property": "C87",
   "status": "proved",
   "theorems": [
    "PinProject.C87_projection",
    "PinProject.C87_unpin",
    "PinProject.C87_drop",
    "PinProject.C87_rest"
   ],
   "note": ""
  },
  {
   "property": "C88",
   "status": "proved",
   "theorems": [
    "PinProject.C88_compiles_iff",
    "PinProject.C88_usual"
   ],
   "note": ""
  },
  {
   "property": "C89",
   "status": "proved",
   "theorems": [
    "PinProject.C89_names",
    "PinProject.C89_closed",
    "PinProject.C89_pinned_drop"
   ],
   "note": ""
  },
  {
   "property": "C90",
   "status": "proved",
   "theorems": [
    "PinProject.C90_rename",
    "PinProject.C90_errors"
   ],
   "note": ""
  },
  {
   "property": "C91",
   "status": "proved",
   "theorems": [
    "PinProject.C91_retype",
    "PinProject.C91_errors"
   ],
   "note": ""
  },
  {
   "property": "C92",
   "status": "proved",
   "theorems": [
    "PinProject.C92_same_traits",
    "PinProject.C92_not_exposed"
   ],
   "note": ""
  },
  {
   "property": "C93",
   "status": "proved",
   "theorems": [
    "PinProject.C93_choose",
    "PinProject.C93_accepted"
   ],
   "note": ""
  },
  {
   "property": "C94",
   "status": "proved",
   "theorems": [
    "PinProject.C94_methods",
    "PinProject.C94_types",
    "PinProject.C94_accepted"
   ],
   "note": ""
  },
  {
   "property": "C95",
   "status": "proved",
   "theorems": [
    "PinProject.C95_rename",
    "PinProject.C95_accepted"
   ],
   "note": ""
  },
  {
   "property": "C96",
   "status": "proved",
   "theorems": [
    "PinProject.C96_methods",
    "PinProject.C96_types",
    "PinProject.C96_accepted"
   ],
   "note": ""
  },
  {
   "property": "C97",
   "status": "proved",
   "theorems": [
    "PinProject.C97_chain",
    "PinProject.C97_distinct",
    "PinProject.C97_no_alias"
   ],
   "note": ""
  },
  {
   "property": "C98",
   "status": "proved",
   "theorems": [
    "PinProject.C98_order",
    "PinProject.C98_outcome",
    "PinProject.C98_once",
    "PinProject.C98_called",
    "PinProject.C98_leaves",
    "PinProject.C98_flat"
   ],
   "note": ""
  },
  {
   "property": "C99",
   "status": "proved",
   "theorems": [
    "PinProject.C99_rewrites",
    "PinProject.C99_tokens",
    "PinProject.C99_idents",
    "PinProject.C99_self",
    "PinProject.C99_fn"
   ],
   "note": ""
  },
  {
   "property": "C100",
   "status": "proved",
   "theorems": [
    "PinProject.C100_replace",
    "PinProject.C100_others"
   ],
   "note": ""
  },
  {
   "property": "C101",
   "status": "proved",
   "theorems": [
    "PinProject.C101_variables",
    "PinProject.C101_self",
    "PinProject.C101_trees"
   ],
   "note": ""
  },
  {
   "property": "C102",
   "status": "proved",
   "theorems": [
    "PinProject.C102_inward",
    "PinProject.C102_not_unpin",
    "PinProject.C102_phantom_pinned",
    "PinProject.C102_ends"
   ],
   "note": ""
  }
 ]
}