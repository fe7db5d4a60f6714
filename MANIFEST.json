{
 "claims": [
  {
   "property": "C01",
   "status": "proved",
   "theorems": [
    "Props.C01_lyra2_domain"
   ],
   "note": "With overflow checks. Without them: C10, C11, C57."
  },
  {
   "property": "C02",
   "status": "proved",
   "theorems": [
    "Props.C02_documented_panics"
   ],
   "note": ""
  },
  {
   "property": "C03",
   "status": "proved",
   "theorems": [
    "Props.C03_output_length"
   ],
   "note": ""
  },
  {
   "property": "C04",
   "status": "proved",
   "theorems": [
    "Props.C04_never_diverges",
    "Props.C04_pass_rounds"
   ],
   "note": ""
  },
  {
   "property": "C05",
   "status": "proved",
   "theorems": [
    "Props.C05_lyra2_reference"
   ],
   "note": ""
  },
  {
   "property": "C06",
   "status": "proved",
   "theorems": [
    "Props.C06_lyra2_result"
   ],
   "note": ""
  },
  {
   "property": "C07",
   "status": "proved",
   "theorems": [
    "Props.C07_trailing_ignored"
   ],
   "note": ""
  },
  {
   "property": "C08",
   "status": "proved",
   "theorems": [
    "Props.C08_sum_short_collide"
   ],
   "note": ""
  },
  {
   "property": "C09",
   "status": "proved",
   "theorems": [
    "Props.C09_absorbed_injective",
    "Props.C09_absorbed_determines",
    "Props.C09_absorbed_state"
   ],
   "note": ""
  },
  {
   "property": "C10",
   "status": "proved",
   "theorems": [
    "Props.C10_release_extends_debug",
    "Props.C10_profiles_agree"
   ],
   "note": "Agreement is claimed for n_rows < 2^63 only; beyond, the builds differ (C11)."
  },
  {
   "property": "C11",
   "status": "proved",
   "theorems": [
    "Props.C11_no_wrap",
    "Props.C11_release_wraps",
    "Props.C11_release_counterexample"
   ],
   "note": "The property of the title is false of the code without overflow checks for n_rows >= 2^63: C11_release_wraps and C11_release_counterexample prove the negation with witnesses, C11_no_wrap the part that holds."
  },
  {
   "property": "C12",
   "status": "proved",
   "theorems": [
    "Props.C12_setup_rows",
    "Props.C12_setup_distinct",
    "Props.C12_setup_covers"
   ],
   "note": ""
  },
  {
   "property": "C13",
   "status": "proved",
   "theorems": [
    "Props.C13_pow2_order"
   ],
   "note": ""
  },
  {
   "property": "C14",
   "status": "proved",
   "theorems": [
    "Props.C14_untouched",
    "Props.C14_untouched_mod",
    "Props.C14_exists_untouched",
    "Props.C14_even_pass_rows"
   ],
   "note": ""
  },
  {
   "property": "C15",
   "status": "proved",
   "theorems": [
    "Props.C15_single_row"
   ],
   "note": ""
  },
  {
   "property": "C16",
   "status": "proved",
   "theorems": [
    "Props.C16_setup_erases"
   ],
   "note": ""
  },
  {
   "property": "C17",
   "status": "proved",
   "theorems": [
    "Props.C17_sum_domain"
   ],
   "note": ""
  },
  {
   "property": "C18",
   "status": "proved",
   "theorems": [
    "Props.C18_squeeze",
    "Props.C18_long_key_panics"
   ],
   "note": ""
  },
  {
   "property": "C19",
   "status": "proved",
   "theorems": [
    "Props.C19_lyra2mod_domain",
    "Props.C19_lyra2mod_profiles_agree"
   ],
   "note": ""
  },
  {
   "property": "C20",
   "status": "proved",
   "theorems": [
    "Props.C20_lyra2mod_result",
    "Props.C20_lyra2mod_rev3"
   ],
   "note": ""
  },
  {
   "property": "C21",
   "status": "proved",
   "theorems": [
    "Props.C21_blake2b_round",
    "Props.C21_bijective"
   ],
   "note": ""
  },
  {
   "property": "C22",
   "status": "proved",
   "theorems": [
    "Props.C22_zero_fixed",
    "Props.C22_start_nonzero"
   ],
   "note": ""
  },
  {
   "property": "C23",
   "status": "proved",
   "theorems": [
    "Props.C23_absorb_safe_injective",
    "Props.C23_first_block_injective",
    "Props.C23_digest_injective"
   ],
   "note": ""
  },
  {
   "property": "C24",
   "status": "proved",
   "theorems": [
    "Props.C24_domain",
    "Props.C24_prefix"
   ],
   "note": ""
  },
  {
   "property": "C25",
   "status": "proved",
   "theorems": [
    "Props.C25_is_cubehash",
    "Props.C25_longer"
   ],
   "note": ""
  },
  {
   "property": "C26",
   "status": "proved",
   "theorems": [
    "Props.C26_rounds_and_iv",
    "Props.C26_injective"
   ],
   "note": ""
  },
  {
   "property": "C27",
   "status": "proved",
   "theorems": [
    "Props.C27_final_state_injective",
    "Props.C27_truncation"
   ],
   "note": ""
  },
  {
   "property": "C28",
   "status": "proved",
   "theorems": [
    "Props.C28_domain"
   ],
   "note": ""
  },
  {
   "property": "C29",
   "status": "proved",
   "theorems": [
    "Props.C29_is_bmw"
   ],
   "note": "The code does not compute BMW-256 beyond 55 bytes, see C30."
  },
  {
   "property": "C30",
   "status": "proved",
   "theorems": [
    "Props.C30_collide",
    "Props.C30_not_bmw"
   ],
   "note": "Proves a defect of the (private) bmw stage."
  },
  {
   "property": "C31",
   "status": "proved",
   "theorems": [
    "Props.C31_block_injective"
   ],
   "note": ""
  },
  {
   "property": "C32",
   "status": "proved",
   "theorems": [
    "Props.C32_pipe_bijective",
    "Props.C32_no_leftover"
   ],
   "note": ""
  },
  {
   "property": "C33",
   "status": "proved",
   "theorems": [
    "Props.C33_read_u32_le",
    "Props.C33_read_u64_le",
    "Props.C33_inverts_to_le_bytes",
    "Props.C33_injective"
   ],
   "note": ""
  },
  {
   "property": "C34",
   "status": "proved",
   "theorems": [
    "Props.C34_lyra2re_total"
   ],
   "note": "For arbitrary external digest functions that return 32 bytes."
  },
  {
   "property": "C35",
   "status": "proved",
   "theorems": [
    "Props.C35_lyra2rev2_total"
   ],
   "note": "For arbitrary external digest functions that return 32 bytes."
  },
  {
   "property": "C36",
   "status": "proved",
   "theorems": [
    "Props.C36_lyra2rev3_total"
   ],
   "note": "For arbitrary external digest functions that return 32 bytes."
  },
  {
   "property": "C37",
   "status": "proved",
   "theorems": [
    "Props.C37_lyra2z_total"
   ],
   "note": "For arbitrary external digest functions that return 32 bytes."
  },
  {
   "property": "C38",
   "status": "proved",
   "theorems": [
    "Props.C38_lyra2re",
    "Props.C38_lyra2rev2",
    "Props.C38_lyra2rev3",
    "Props.C38_lyra2z"
   ],
   "note": "For arbitrary external digest functions that return 32 bytes."
  },
  {
   "property": "C39",
   "status": "proved",
   "theorems": [
    "Props.C39_blake_only",
    "Props.C39_profiles"
   ],
   "note": "For arbitrary external digest functions that return 32 bytes."
  },
  {
   "property": "C40",
   "status": "proved",
   "theorems": [
    "Props.C40_setup_rows",
    "Props.C40_wander_rows",
    "Props.C40_row_operation_frame"
   ],
   "note": ""
  },
  {
   "property": "C41",
   "status": "proved",
   "theorems": [
    "Props.C41_bytes32",
    "Props.C41_published"
   ],
   "note": "That the external digest crates compute the specified digests is assumed."
  },
  {
   "property": "C42",
   "status": "proved",
   "theorems": [
    "Props.C42_row_missing",
    "Props.C42_not_reference"
   ],
   "note": "Refutes agreement with the reference for row counts that are not powers of two."
  },
  {
   "property": "C43",
   "status": "proved",
   "theorems": [
    "Props.C43_pow2_order",
    "Props.C43_pass_rounds",
    "Props.C43_wander_rows"
   ],
   "note": ""
  },
  {
   "property": "C44",
   "status": "proved",
   "theorems": [
    "Props.C44_sum_domain",
    "Props.C44_sum_short_collide"
   ],
   "note": ""
  },
  {
   "property": "C45",
   "status": "proved",
   "theorems": [
    "Props.C45_row_operation_injective",
    "Props.C45_row_operation_onto"
   ],
   "note": ""
  },
  {
   "property": "C46",
   "status": "proved",
   "theorems": [
    "Props.C46_setup_injective",
    "Props.C46_phases",
    "Props.C46_digest_injective"
   ],
   "note": ""
  },
  {
   "property": "C47",
   "status": "proved",
   "theorems": [
    "Props.C47_wander_schedule",
    "Props.C47_wander_schedule_mod",
    "Props.C47_schedule_pow2",
    "Props.C47_schedule_bound",
    "Props.C47_call",
    "Props.C47_call_mod"
   ],
   "note": ""
  },
  {
   "property": "C48",
   "status": "proved",
   "theorems": [
    "Props.C48_same_start",
    "Props.C48_not_lyra2"
   ],
   "note": ""
  },
  {
   "property": "C49",
   "status": "proved",
   "theorems": [
    "Props.C49_fixed_rows_injective",
    "Props.C49_fixed_rows_onto",
    "Props.C49_wander_is_row_operations",
    "Props.C49_predecessors",
    "Props.C49_digests"
   ],
   "note": ""
  },
  {
   "property": "C50",
   "status": "proved",
   "theorems": [
    "Props.C50_lyra2re",
    "Props.C50_lyra2rev2",
    "Props.C50_lyra2rev3",
    "Props.C50_lyra2z"
   ],
   "note": "For arbitrary external digest functions that return 32 bytes."
  },
  {
   "property": "C51",
   "status": "proved",
   "theorems": [
    "Props.C51_same_row_operations",
    "Props.C51_even_pass_rows",
    "Props.C51_single_row",
    "Props.C51_release_wraps"
   ],
   "note": ""
  },
  {
   "property": "C52",
   "status": "proved",
   "theorems": [
    "Props.C52_usize64",
    "Props.C52_same_result",
    "Props.C52_lyra2_domain",
    "Props.C52_lyra2mod_domain"
   ],
   "note": "For n_rows >= 2^63 only termination is proved."
  },
  {
   "property": "C53",
   "status": "proved",
   "theorems": [
    "Props.C53_zero_key",
    "Props.C53_length",
    "Props.C53_length_mod",
    "Props.C53_not_length"
   ],
   "note": "Refutes C03 on 32-bit targets for k >= 2^63."
  },
  {
   "property": "C54",
   "status": "proved",
   "theorems": [
    "Props.C54_chains"
   ],
   "note": "For arbitrary external digest functions that return 32 bytes."
  },
  {
   "property": "C55",
   "status": "proved",
   "theorems": [
    "Props.C55_same_outcome",
    "Props.C55_access_pattern",
    "Props.C55_access_pattern_mod",
    "Props.C55_public_part",
    "Props.C55_public_part_mod",
    "Props.C55_log_reveals",
    "Props.C55_log_reveals_mod",
    "Props.C55_depends_on_password",
    "Props.C55_in_bounds"
   ],
   "note": ""
  },
  {
   "property": "C56",
   "status": "proved",
   "theorems": [
    "Props.C56_cost",
    "Props.C56_cost_pow2",
    "Props.C56_copies",
    "Props.C56_copies_mod",
    "Props.C56_copies_depend_on_password"
   ],
   "note": ""
  },
  {
   "property": "C57",
   "status": "proved",
   "theorems": [
    "Props.C57_none_iff",
    "Props.C57_outcome",
    "Props.C57_release",
    "Props.C57_sum",
    "Props.C57_wrapped",
    "Props.C57_fits"
   ],
   "note": "Not settled: builds without overflow checks with n_rows = 2^63 + R' and 12*R'*n_cols >= 2^64, where only a necessary condition for returning is proved; password and salt of more than 2^62 bytes together."
  },
  {
   "property": "C58",
   "status": "proved",
   "theorems": [
    "Props.C58_pass_counts",
    "Props.C58_total",
    "Props.C58_pow2_succ"
   ],
   "note": ""
  },
  {
   "property": "C59",
   "status": "proved",
   "theorems": [
    "Props.C59_text",
    "Props.C59_lyra2",
    "Props.C59_sum",
    "Props.C59_cubehash_bmw",
    "Props.C59_chains",
    "Props.C59_utils"
   ],
   "note": ""
  },
  {
   "property": "C60",
   "status": "proved",
   "theorems": [
    "Props.C60_lyra2",
    "Props.C60_cubehash_bmw",
    "Props.C60_chains"
   ],
   "note": ""
  },
  {
   "property": "C61",
   "status": "proved",
   "theorems": [
    "Props.C61_reasons",
    "Props.C61_reasons_sums",
    "Props.C61_never_stuck",
    "Props.C61_never_stuck_chains"
   ],
   "note": ""
  },
  {
   "property": "C62",
   "status": "proved",
   "theorems": [
    "Props.C62_same_outcome",
    "Props.C62_cost",
    "Props.C62_same_kinds"
   ],
   "note": "For arbitrary external digest functions that return 32 bytes."
  },
  {
   "property": "C63",
   "status": "proved",
   "theorems": [
    "Props.C63_reasons",
    "Props.C63_lyra2",
    "Props.C63_sums",
    "Props.C63_chains",
    "Props.C63_domain",
    "Props.C63_result",
    "Props.C63_zero_key",
    "Props.C63_chain_results",
    "Props.C63_never_stuck",
    "Props.C63_never_stuck_chains"
   ],
   "note": "Which calls with n_rows >= 2^63 return on a 32-bit target is not characterised (as in C52); that they terminate is."
  },
  {
   "property": "C64",
   "status": "proved",
   "theorems": [
    "Props.C64_same_outcome",
    "Props.C64_lyra2",
    "Props.C64_chains",
    "Props.C64_access_pattern",
    "Props.C64_access_pattern_mod",
    "Props.C64_public_part",
    "Props.C64_cost",
    "Props.C64_chains_cost",
    "Props.C64_lyra2_target",
    "Props.C64_chains_target",
    "Props.C64_same_on_32",
    "Props.C64_access_pattern32",
    "Props.C64_access_pattern_mod32",
    "Props.C64_cost32",
    "Props.C64_chains_cost32"
   ],
   "note": ""
  },
  {
   "property": "C65",
   "status": "proved",
   "theorems": [
    "Props.C65_check_sound",
    "Props.C65_functions",
    "Props.C65_which",
    "Props.C65_secret",
    "Props.C65_hashes",
    "Props.C65_setup",
    "Props.C65_not_lyra2",
    "Props.C65_rejected",
    "Props.C65_setup32"
   ],
   "note": "Observers of the source text, not of compiled code; the notes are those of Source/Log.lean. (v) is the negative part: lyra2 as a whole is not constant-time."
  },
  {
   "property": "C66",
   "status": "proved",
   "theorems": [
    "Props.C66_control",
    "Props.C66_lyra2",
    "Props.C66_sums",
    "Props.C66_accepted",
    "Props.C66_chains",
    "Props.C66_accepted32",
    "Props.C66_chains32"
   ],
   "note": "Observers of the source text, not of compiled code; the notes are those of Source/Log.lean without positions and sizes."
  },
  {
   "property": "C67",
   "status": "proved",
   "theorems": [
    "Props.C67_if",
    "Props.C67_for",
    "Props.C67_index",
    "Props.C67_slice",
    "Props.C67_prefix",
    "Props.C67_operator",
    "Props.C67_operand",
    "Props.C67_vec",
    "Props.C67_copy",
    "Props.C67_call",
    "Props.C67_body",
    "Props.C67_write",
    "Props.C67_update",
    "Props.C67_split"
   ],
   "note": ""
  },
  {
   "property": "C68",
   "status": "proved",
   "theorems": [
    "Props.C68_no_recursion",
    "Props.C68_depth",
    "Props.C68_foreign"
   ],
   "note": ""
  },
  {
   "property": "C69",
   "status": "proved",
   "theorems": [
    "Props.C69_crate",
    "Props.C69_unambiguous",
    "Props.C69_tokens",
    "Props.C69_lexer",
    "Props.C69_parser",
    "Props.C69_tables",
    "Props.C69_names"
   ],
   "note": ""
  },
  {
   "property": "C70",
   "status": "proved",
   "theorems": [
    "Props.C70_modules",
    "Props.C70_public",
    "Props.C70_signatures",
    "Props.C70_calls",
    "Props.C70_total"
   ],
   "note": ""
  },
  {
   "property": "C71",
   "status": "proved",
   "theorems": [
    "Props.C71_well_typed",
    "Props.C71_places",
    "Props.C71_unique",
    "Props.C71_forced",
    "Props.C71_structs"
   ],
   "note": ""
  },
  {
   "property": "C72",
   "status": "proved",
   "theorems": [
    "Props.C72_sound",
    "Props.C72_locals",
    "Props.C72_crate",
    "Props.C72_literals"
   ],
   "note": ""
  }
 ]
}