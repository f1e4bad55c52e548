{
 "claims": [
  {
   "property": "C08",
   "status": "proved",
   "theorems": [
    "Verif.Props.C08_sqrt_down",
    "Verif.Props.C08_sqrt_up",
    "Verif.Props.C08_two",
    "Verif.Props.C08_powers_of_four"
   ],
   "note": "relative error 2^-30 except for the single raw value 2 rounded down"
  },
  {
   "property": "C09",
   "status": "proved",
   "theorems": [
    "Verif.Props.C09_down_total",
    "Verif.Props.C09_up_iff"
   ],
   "note": ""
  },
  {
   "property": "C10",
   "status": "proved",
   "theorems": [
    "Verif.Props.C10_isqrt_down",
    "Verif.Props.C10_isqrt_up"
   ],
   "note": ""
  },
  {
   "property": "C12",
   "status": "proved",
   "theorems": [
    "Verif.Props.C12_round_trip",
    "Verif.Props.C12_to_imprecise",
    "Verif.Props.C12_to_imprecise_total",
    "Verif.Props.C12_floor",
    "Verif.Props.C12_ceiling",
    "Verif.Props.C12_whole_fixed"
   ],
   "note": ""
  },
  {
   "property": "C13",
   "status": "proved",
   "theorems": [
    "Verif.Props.C13_mul_whole",
    "Verif.Props.C13_div_whole",
    "Verif.Props.C13_mul_nearest",
    "Verif.Props.C13_mul_comm",
    "Verif.Props.C13_mul_fallback"
   ],
   "note": ""
  },
  {
   "property": "C14",
   "status": "partial",
   "theorems": [
    "Verif.Props.C14_to_spl_partial",
    "Verif.Props.C14_half_and_above",
    "Verif.Props.C14_false"
   ],
   "note": "false for fractional parts >= 1/2 (witness 1.5 -> 2.5); proved exactly for both halves"
  },
  {
   "property": "C01",
   "status": "proved",
   "theorems": [
    "Verif.Props.C01_solvency"
   ],
   "note": ""
  },
  {
   "property": "C02",
   "status": "proved",
   "theorems": [
    "Verif.Props.C02_exact"
   ],
   "note": "history in which the B vault is never empty"
  },
  {
   "property": "C03",
   "status": "partial",
   "theorems": [
    "Verif.Props.C03_sell_buy_partial",
    "Verif.Props.C03_steep_partial",
    "Verif.Props.C03_false"
   ],
   "note": "false on a curve that is almost flat and whose half-slope is not a multiple of 10^-18 (concrete witness); proved for representable curves and, whatever the parameters, for curves whose slope times price at one token A is at least 10^-17 (Steep), including sales that empty the A vault"
  },
  {
   "property": "C04",
   "status": "partial",
   "theorems": [
    "Verif.Props.C04_buy_sell_partial",
    "Verif.Props.C04_slack",
    "Verif.Props.C04_any_partial",
    "Verif.Props.C04_any_slack",
    "Verif.Props.C04_false"
   ],
   "note": "false for marginal prices above 10^18 (concrete witness); proved for marginal price at most 10^18, and with a slack of 32 units for all representable curves; for every valid curve when 5/slope plus the marginal price is below 10^18, and with a slack of 36 units"
  },
  {
   "property": "C05",
   "status": "proved",
   "theorems": [
    "Verif.Props.C05_split",
    "Verif.Props.C05_combined_succeeds",
    "Verif.Props.C05_many"
   ],
   "note": ""
  },
  {
   "property": "C06",
   "status": "proved",
   "theorems": [
    "Verif.Props.C06_position_mono",
    "Verif.Props.C06_buy_mono",
    "Verif.Props.C06_buy_succeeds",
    "Verif.Props.C06_sell_mono"
   ],
   "note": ""
  },
  {
   "property": "C11",
   "status": "proved",
   "theorems": [
    "Verif.Props.C11_params",
    "Verif.Props.C11_supply"
   ],
   "note": ""
  },
  {
   "property": "C44",
   "status": "proved",
   "theorems": [
    "Verif.Props.C44_down_total",
    "Verif.Props.C44_up_iff",
    "Verif.Props.C44_stuck"
   ],
   "note": ""
  },
  {
   "property": "C07",
   "status": "proved",
   "theorems": [
    "Verif.Props.C07_swap_bounds"
   ],
   "note": ""
  },
  {
   "property": "C15",
   "status": "proved",
   "theorems": [
    "Verif.Props.C15_validate",
    "Verif.Props.C15_fee"
   ],
   "note": ""
  },
  {
   "property": "C16",
   "status": "proved",
   "theorems": [
    "Verif.Props.C16_curve",
    "Verif.Props.C16_swap",
    "Verif.Props.C16_history"
   ],
   "note": ""
  },
  {
   "property": "C17",
   "status": "proved",
   "theorems": [
    "Verif.Props.C17_product",
    "Verif.Props.C17_offset",
    "Verif.Props.C17_no_profit",
    "Verif.Props.C17_history",
    "Verif.Props.C17_offset_history",
    "Verif.Props.C17_empty_source"
   ],
   "note": "C17_empty_source shows why a positive source balance is required"
  },
  {
   "property": "C18",
   "status": "partial",
   "theorems": [
    "Verif.Props.C18_deposit_partial",
    "Verif.Props.C18_deposit_even_partial",
    "Verif.Props.C18_false"
   ],
   "note": "false when the pool value is odd (concrete witness); proved with a loss bounded by the parity, exact for even values"
  },
  {
   "property": "C19",
   "status": "proved",
   "theorems": [
    "Verif.Props.C19_constant_price",
    "Verif.Props.C19_product"
   ],
   "note": ""
  },
  {
   "property": "C20",
   "status": "proved",
   "theorems": [
    "Verif.Props.C20_deposit",
    "Verif.Props.C20_withdraw"
   ],
   "note": ""
  },
  {
   "property": "C21",
   "status": "proved",
   "theorems": [
    "Verif.Props.C21_deposit_single"
   ],
   "note": ""
  },
  {
   "property": "C22",
   "status": "partial",
   "theorems": [
    "Verif.Props.C22_withdraw_partial",
    "Verif.Props.C22_withdraw_no_fee_partial",
    "Verif.Props.C22_false"
   ],
   "note": "false with a trade fee (concrete witness): the burn is computed net of the fee; proved up to the fee, and exactly for schedules without a trade fee"
  },
  {
   "property": "C23",
   "status": "proved",
   "theorems": [
    "Verif.Props.C23_owner_fee"
   ],
   "note": ""
  },
  {
   "property": "C42",
   "status": "proved",
   "theorems": [
    "Verif.Props.C42_history"
   ],
   "note": "also covers single-sided deposits and donations"
  },
  {
   "property": "C43",
   "status": "proved",
   "theorems": [
    "Verif.Props.C43_swap",
    "Verif.Props.C43_conversion"
   ],
   "note": ""
  },
  {
   "property": "C24",
   "status": "proved",
   "theorems": [
    "Verif.Props.C24_round_trip",
    "Verif.Props.C24_wrong_size",
    "Verif.Props.C24_advertised_size"
   ],
   "note": ""
  },
  {
   "property": "C25",
   "status": "proved",
   "theorems": [
    "Verif.Props.C25_accepts",
    "Verif.Props.C25_faithful",
    "Verif.Props.C25_no_panic"
   ],
   "note": ""
  },
  {
   "property": "C27",
   "status": "proved",
   "theorems": [
    "Verif.Props.C27_initialize"
   ],
   "note": ""
  },
  {
   "property": "C29",
   "status": "proved",
   "theorems": [
    "Verif.Props.C29_swap"
   ],
   "note": ""
  },
  {
   "property": "C30",
   "status": "proved",
   "theorems": [
    "Verif.Props.C30_deposit_all",
    "Verif.Props.C30_deposit_single"
   ],
   "note": ""
  },
  {
   "property": "C31",
   "status": "proved",
   "theorems": [
    "Verif.Props.C31_withdraw_all",
    "Verif.Props.C31_withdraw_single"
   ],
   "note": ""
  },
  {
   "property": "C32",
   "status": "proved",
   "theorems": [
    "Verif.Props.C32_conservation",
    "Verif.Props.C32_pool_mint"
   ],
   "note": ""
  },
  {
   "property": "C33",
   "status": "proved",
   "theorems": [
    "Verif.Props.C33_no_theft"
   ],
   "note": ""
  },
  {
   "property": "C36",
   "status": "proved",
   "theorems": [
    "Verif.Props.C36_no_withdrawals"
   ],
   "note": ""
  },
  {
   "property": "C37",
   "status": "partial",
   "theorems": [
    "Verif.Props.C37_no_deposits_partial",
    "Verif.Props.C37_false"
   ],
   "note": "false in a reachable ledger (concrete witness): single-sided deposits succeed once all pool tokens have been burnt"
  },
  {
   "property": "C39",
   "status": "proved",
   "theorems": [
    "Verif.Props.C39_minted_to_fee_account",
    "Verif.Props.C39_no_host_fee"
   ],
   "note": ""
  },
  {
   "property": "C40",
   "status": "proved",
   "theorems": [
    "Verif.Props.C40_constraints",
    "Verif.Props.C40_production",
    "Verif.Props.C40_no_linear"
   ],
   "note": ""
  },
  {
   "property": "C26",
   "status": "proved",
   "theorems": [
    "Verif.Props.C26_pool_forever",
    "Verif.Props.C26_init_once"
   ],
   "note": ""
  },
  {
   "property": "C28",
   "status": "proved",
   "theorems": [
    "Verif.Props.C28_pool_kinds"
   ],
   "note": ""
  },
  {
   "property": "C34",
   "status": "proved",
   "theorems": [
    "Verif.Props.C34_isolated"
   ],
   "note": ""
  },
  {
   "property": "C35",
   "status": "proved",
   "theorems": [
    "Verif.Props.C35_custody"
   ],
   "note": ""
  },
  {
   "property": "C38",
   "status": "proved",
   "theorems": [
    "Verif.Props.C38_no_charges"
   ],
   "note": ""
  },
  {
   "property": "C41",
   "status": "proved",
   "theorems": [
    "Verif.Props.C41_solvency",
    "Verif.Props.C41_exact"
   ],
   "note": ""
  },
  {
   "property": "C45",
   "status": "proved",
   "theorems": [
    "Verif.Props.C45_position",
    "Verif.Props.C45_position_unique"
   ],
   "note": ""
  },
  {
   "property": "C46",
   "status": "proved",
   "theorems": [
    "Verif.Props.C46_buy"
   ],
   "note": ""
  },
  {
   "property": "C47",
   "status": "proved",
   "theorems": [
    "Verif.Props.C47_sell"
   ],
   "note": ""
  },
  {
   "property": "C48",
   "status": "partial",
   "theorems": [
    "Verif.Props.C48_sell_partial",
    "Verif.Props.C48_buy_partial",
    "Verif.Props.C48_false",
    "Verif.Props.C48_small_sales_fail",
    "Verif.Props.C48_small_purchases_fail"
   ],
   "note": "false of the code (concrete witness: a sale worth a million token A pays one); proved up to the root error of the curve position"
  },
  {
   "property": "C49",
   "status": "proved",
   "theorems": [
    "Verif.Props.C49_pays",
    "Verif.Props.C49_takes",
    "Verif.Props.C49_stable_pays_nothing"
   ],
   "note": "the stable curve is excluded (concrete case of a zero payment)"
  },
  {
   "property": "C50",
   "status": "proved",
   "theorems": [
    "Verif.Props.C50_product",
    "Verif.Props.C50_constant_price",
    "Verif.Props.C50_offset"
   ],
   "note": ""
  },
  {
   "property": "C51",
   "status": "partial",
   "theorems": [
    "Verif.Props.C51_stable_partial",
    "Verif.Props.C51_false",
    "Verif.Props.C51_round_trip_profit"
   ],
   "note": "false of the code (concrete witness, also a profitable round trip); proved: the invariant of the new balances with one more unit paid back is above the old invariant less one"
  },
  {
   "property": "C52",
   "status": "proved",
   "theorems": [
    "Verif.Props.C52_swap",
    "Verif.Props.C52_linear",
    "Verif.Props.C52_fee_account"
   ],
   "note": ""
  },
  {
   "property": "C53",
   "status": "proved",
   "theorems": [
    "Verif.Props.C53_deposit_all",
    "Verif.Props.C53_withdraw_all",
    "Verif.Props.C53_deposit_single",
    "Verif.Props.C53_withdraw_single"
   ],
   "note": ""
  },
  {
   "property": "C54",
   "status": "proved",
   "theorems": [
    "Verif.Props.C54_initialize"
   ],
   "note": ""
  },
  {
   "property": "C55",
   "status": "proved",
   "theorems": [
    "Verif.Props.C55_burn",
    "Verif.Props.C55_mint",
    "Verif.Props.C55_price_burn",
    "Verif.Props.C55_price_mint",
    "Verif.Props.C55_price_mint_succeeds",
    "Verif.Props.C55_deposit_single",
    "Verif.Props.C55_withdraw_single",
    "Verif.Props.C55_withdraw_single_succeeds"
   ],
   "note": "single-sided operations of the constant-product, offset and stable curves are covered by C59"
  },
  {
   "property": "C56",
   "status": "proved",
   "theorems": [
    "Verif.Props.C56_initialize"
   ],
   "note": ""
  },
  {
   "property": "C57",
   "status": "proved",
   "theorems": [
    "Verif.Props.C57_host"
   ],
   "note": "about process_swap itself; the public instructions never name a host (C39)"
  },
  {
   "property": "C58",
   "status": "proved",
   "theorems": [
    "Verif.Props.C58_frozen",
    "Verif.Props.C58_swap_thawed",
    "Verif.Props.C58_allowance"
   ],
   "note": ""
  },
  {
   "property": "C59",
   "status": "proved",
   "theorems": [
    "Verif.Props.C59_root_deposit",
    "Verif.Props.C59_root_withdraw",
    "Verif.Props.C59_root_deposit_fair",
    "Verif.Props.C59_root_withdraw_fair",
    "Verif.Props.C59_stable_deposit",
    "Verif.Props.C59_stable_withdraw",
    "Verif.Props.C59_stable_withdraw_charge"
   ],
   "note": "the square root of spl-math is a parameter (C105 is about the published one); stable invariants are those compute_d returns (bounded below by C51)"
  },
  {
   "property": "C60",
   "status": "partial",
   "theorems": [
    "Verif.Props.C60_false",
    "Verif.Props.C60_drain",
    "Verif.Props.C60_purchases_partial",
    "Verif.Props.C60_steep_partial",
    "Verif.Props.C60_chain_partial",
    "Verif.Props.C60_dear_partial",
    "Verif.Props.C60_cheap_partial",
    "Verif.Props.C60_executions_partial"
   ],
   "note": "false on almost flat curves that are not representable (drain shown for every number of rounds); proved with sales for all steep curves, on the curve and over whole executions, and for every valid curve while nobody sells, as long as the B vault is not emptied; for somewhat steeper curves also when it is emptied, unless the last token costs between 7/10 and two units of A; representable curves are C01"
  },
  {
   "property": "C61",
   "status": "proved",
   "theorems": [
    "Verif.Props.C61_tags",
    "Verif.Props.C61_data",
    "Verif.Props.C61_unambiguous",
    "Verif.Props.C61_entry",
    "Verif.Props.C61_not_idl",
    "Verif.Props.C61_writes",
    "Verif.Props.C61_no_theft"
   ],
   "note": "dispatch generated by anchor-lang 0.20.1 is recalled, not in /repo; Anchor's own IDL instructions are a parameter here and part of the environment contract"
  },
  {
   "property": "C62",
   "status": "proved",
   "theorems": [
    "Verif.Props.C62_numbers",
    "Verif.Props.C62_faithful",
    "Verif.Props.C62_authority",
    "Verif.Props.C62_origin",
    "Verif.Props.C62_description"
   ],
   "note": "curve parameters are not shown by the client; the sign of a negative number is dropped by its conversion"
  },
  {
   "property": "C63",
   "status": "partial",
   "theorems": [
    "Verif.Props.C63_false",
    "Verif.Props.C63_rejected",
    "Verif.Props.C63_tag_partial"
   ],
   "note": "false: one-byte tags; proved: everything but the tag agrees, except for initialisation whose arguments differ as well"
  },
  {
   "property": "C64",
   "status": "proved",
   "theorems": [
    "Verif.Props.C64_sale",
    "Verif.Props.C64_everything",
    "Verif.Props.C64_purchase"
   ],
   "note": "representable curves; blur is the rounding of the binary square root (about 2^-30 of the marginal price over the slope); excludes the vault contents at which the square root panics (C44)"
  },
  {
   "property": "C65",
   "status": "partial",
   "theorems": [
    "Verif.Props.C65_price",
    "Verif.Props.C65_product",
    "Verif.Props.C65_offset",
    "Verif.Props.C65_stable_false",
    "Verif.Props.C65_linear_false",
    "Verif.Props.C65_false",
    "Verif.Props.C65_linear_buy_partial",
    "Verif.Props.C65_linear_sell_partial",
    "Verif.Props.C65_blind"
   ],
   "note": "False for stable and linear curves (witnesses). Proved for constant-price, constant-product and offset curves with any fees; on linear curves the untruncated total is monotone under purchases that leave token B and falls by at most half a token B plus the blur in a sale (representable curves)."
  },
  {
   "property": "C66",
   "status": "proved",
   "theorems": [
    "Verif.Props.C66_contract",
    "Verif.Props.C66_executions",
    "Verif.Props.C66_vaults",
    "Verif.Props.C66_delegate_drains",
    "Verif.Props.C66_close_removes",
    "Verif.Props.C66_minter_inflates",
    "Verif.Props.C66_freezer_freezes",
    "Verif.Props.C66_handover"
   ],
   "note": "The token program, system program, runtime rules and IDL instructions are modelled in Model/TokenProgram.lean from the published crates. Wrapped SOL is covered (SyncNative, closing a non-empty account); how many lamports an account holds is a parameter. Not covered: rent, program upgrades."
  },
  {
   "property": "C67",
   "status": "proved",
   "theorems": [
    "Verif.Props.C67_local",
    "Verif.Props.C67_unaffected",
    "Verif.Props.C67_unaffected_all",
    "Verif.Props.C67_commute",
    "Verif.Props.C67_same_pool"
   ],
   "note": "Accounts are those of the documented account lists; the token program is called with the same accounts."
  },
  {
   "property": "C68",
   "status": "proved",
   "theorems": [
    "Verif.Props.C68_swap",
    "Verif.Props.C68_deposit_single",
    "Verif.Props.C68_withdraw_single",
    "Verif.Props.C68_deposit_all",
    "Verif.Props.C68_withdraw_all"
   ],
   "note": "Limits zero or 2^64-1 stand for no limit."
  },
  {
   "property": "C69",
   "status": "partial",
   "theorems": [
    "Verif.Props.C69_step_partial",
    "Verif.Props.C69_withdraw_single_partial",
    "Verif.Props.C69_history_partial",
    "Verif.Props.C69_round_trip_gains",
    "Verif.Props.C69_false"
   ],
   "note": "False for single-sided withdrawals from pools with a trade fee (witness, and a profitable round trip). Proved for everything else; the number h of pool tokens is assumed to exist throughout; C88 shows that it does while somebody holds it."
  },
  {
   "property": "C70",
   "status": "partial",
   "theorems": [
    "Verif.Props.C70_false",
    "Verif.Props.C70_split_sale_partial",
    "Verif.Props.C70_steep_partial",
    "Verif.Props.C70_many_partial"
   ],
   "note": "False of an almost flat curve whose half-slope is not a multiple of 10^-18 (witness). Proved for representable curves and for steep ones."
  },
  {
   "property": "C71",
   "status": "proved",
   "theorems": [
    "Verif.Props.C71_buy_price",
    "Verif.Props.C71_buy_spot",
    "Verif.Props.C71_later_buyer",
    "Verif.Props.C71_sell_price",
    "Verif.Props.C71_sell_spot"
   ],
   "note": "Representable curves; purchases that leave token B in the vault. Blur is the rounding of the binary square root (C46)."
  },
  {
   "property": "C72",
   "status": "proved",
   "theorems": [
    "Verif.Props.C72_handover",
    "Verif.Props.C72_purchase",
    "Verif.Props.C72_every"
   ],
   "note": "The exact cost of the first pool must be a whole number of token A."
  },
  {
   "property": "C73",
   "status": "proved",
   "theorems": [
    "Verif.Props.C73_accounted",
    "Verif.Props.C73_fresh",
    "Verif.Props.C73_covered",
    "Verif.Props.C73_burnable",
    "Verif.Props.C73_zero",
    "Verif.Props.C73_solvent"
   ],
   "note": "Steps of others are those of Model/TokenProgram (C66). Tokens counted are those in accounts owned by the token program. Not for wrapped SOL, whose mint has supply zero."
  },
  {
   "property": "C74",
   "status": "proved",
   "theorems": [
    "Verif.Props.C74_potential",
    "Verif.Props.C74_net_cost",
    "Verif.Props.C74_cycle",
    "Verif.Props.C74_exits",
    "Verif.Props.C74_chain"
   ],
   "note": "Trades that buy the last token B are excluded: these can round by half a token A (C01, C46)."
  },
  {
   "property": "C75",
   "status": "proved",
   "theorems": [
    "Verif.Props.C75_abort",
    "Verif.Props.C75_never",
    "Verif.Props.C75_stuck",
    "Verif.Props.C75_deposit_aborts",
    "Verif.Props.C75_withdrawal_aborts",
    "Verif.Props.C75_swap_aborts"
   ],
   "note": "Concerns the panics of the program and of the token program calls it makes; heap, stack and compute limits are not modelled. Each case but the last is met by a concrete reachable ledger."
  },
  {
   "property": "C76",
   "status": "partial",
   "theorems": [
    "Verif.Props.C76_false",
    "Verif.Props.C76_locked",
    "Verif.Props.C76_dead",
    "Verif.Props.C76_release_partial",
    "Verif.Props.C76_tokens_partial",
    "Verif.Props.C76_zero_partial"
   ],
   "note": "False: there are accepted curves that are stuck at every balance (witness, on chain). Proved: which stuck pools can be released, with how many tokens, and that the others are locked forever."
  },
  {
   "property": "C77",
   "status": "proved",
   "theorems": [
    "Verif.Props.C77_allowance",
    "Verif.Props.C77_untouched",
    "Verif.Props.C77_all_steps",
    "Verif.Props.C77_only_steps",
    "Verif.Props.C77_multisig",
    "Verif.Props.C77_spends"
   ],
   "note": "The owner must not be a derived address of the program (vaults: C35, C66) and must not have named a close authority. Steps of others are those of Model/TokenProgram. The token program called by this program does not look for the keys of a multisig; the model lets the address of the multisig sign there, which allows more executions than there are."
  },
  {
   "property": "C78",
   "status": "partial",
   "theorems": [
    "Verif.Props.C78_false",
    "Verif.Props.C78_sole_partial",
    "Verif.Props.C78_limit",
    "Verif.Props.C78_abort",
    "Verif.Props.C78_existing_partial",
    "Verif.Props.C78_swap_partial"
   ],
   "note": "False: the numbers 1, 3, 4, 5 and 17 are shared with the token program (witness for 1). Proved: every other number has one meaning, and all do if the pool exists and its authority is named. The numbers of spl-token and Anchor are recalled, not in /repo; built-in errors of the runtime are not told apart."
  },
  {
   "property": "C79",
   "status": "partial",
   "theorems": [
    "Verif.Props.C79_false",
    "Verif.Props.C79_withdraw_false",
    "Verif.Props.C79_helper_false",
    "Verif.Props.C79_deposit_partial",
    "Verif.Props.C79_deposit_close_partial",
    "Verif.Props.C79_withdraw_partial",
    "Verif.Props.C79_withdraw_close_partial"
   ],
   "note": "That the one-sided way is never worse is proved in full; the promised closeness is false for small amounts (witnesses) and proved from 400 pool tokens, or the value of 400 token B and 200 token A, on."
  },
  {
   "property": "C80",
   "status": "partial",
   "theorems": [
    "Verif.Props.C80_false",
    "Verif.Props.C80_left_behind",
    "Verif.Props.C80_share_partial",
    "Verif.Props.C80_single",
    "Verif.Props.C80_refused",
    "Verif.Props.C80_last",
    "Verif.Props.C80_everything"
   ],
   "note": "False of two-sided withdrawals when a vault holds less than half of the share (reachable witness, including who gets the rest). Proved when both vaults can pay; one-sided withdrawals and the way out for the holder of all pool tokens are proved in full."
  },
  {
   "property": "C81",
   "status": "proved",
   "theorems": [
    "Verif.Props.C81_swap",
    "Verif.Props.C81_deposit_all",
    "Verif.Props.C81_deposit_single",
    "Verif.Props.C81_withdraw_all",
    "Verif.Props.C81_withdraw_single"
   ],
   "note": "pools that trade their own pool tokens are excluded (except for swaps on linear pools)"
  },
  {
   "property": "C82",
   "status": "proved",
   "theorems": [
    "Verif.Props.C82_amounts",
    "Verif.Props.C82_linear",
    "Verif.Props.C82_tolerated",
    "Verif.Props.C82_untolerated"
   ],
   "note": "C82_untolerated: the list of the fuzz test alone is not enough"
  },
  {
   "property": "C83",
   "status": "proved",
   "theorems": [
    "Verif.Props.C83_sale",
    "Verif.Props.C83_refused",
    "Verif.Props.C83_purchase",
    "Verif.Props.C83_buyout",
    "Verif.Props.C83_purchase_other",
    "Verif.Props.C83_dust"
   ],
   "note": "C83_dust: the exception occurs; C83_buyout needs that both purchases stop short of the offer"
  },
  {
   "property": "C84",
   "status": "proved",
   "theorems": [
    "Verif.Props.C84_trade",
    "Verif.Props.C84_abort",
    "Verif.Props.C84_fees",
    "Verif.Props.C84_ledger"
   ],
   "note": ""
  },
  {
   "property": "C85",
   "status": "proved",
   "theorems": [
    "Verif.Props.C85_setup",
    "Verif.Props.C85_execution"
   ],
   "note": "Token program and account creation as modelled in Model/TokenProgram.lean; rent and transaction fees are not modelled."
  },
  {
   "property": "C86",
   "status": "proved",
   "theorems": [
    "Verif.Props.C86_consent",
    "Verif.Props.C86_pool_tokens",
    "Verif.Props.C86_spendable"
   ],
   "note": "Accounts frozen before the pool was initialised, while the mint still had a freeze authority, stay frozen. The holder must not be a derived address of the program and must not have named a close authority. The clause on frozen accounts excludes wrapped SOL, whose amount follows the lamports."
  },
  {
   "property": "C87",
   "status": "proved",
   "theorems": [
    "Verif.Props.C87_scarce",
    "Verif.Props.C87_room",
    "Verif.Props.C87_trade",
    "Verif.Props.C87_withdraw_all",
    "Verif.Props.C87_withdraw_single"
   ],
   "note": "Trades are for linear pools. For withdrawals the pool mint is accounted for too and is not one of the tokens traded. Deposits keep a room condition, since they mint (C81)."
  },
  {
   "property": "C88",
   "status": "proved",
   "theorems": [
    "Verif.Props.C88_share",
    "Verif.Props.C88_collect"
   ],
   "note": "The pool mint is accounted for (an invariant, C73) and not wrapped SOL. C88_collect is for pools without trade, owner and withdrawal fees, with vault and receiving account not frozen; the amount must be worth a pool token."
  },
  {
   "property": "C89",
   "status": "proved",
   "theorems": [
    "Verif.Props.C89_purchase",
    "Verif.Props.C89_quoted_purchase",
    "Verif.Props.C89_sale",
    "Verif.Props.C89_quoted_sale",
    "Verif.Props.C89_purchase_many",
    "Verif.Props.C89_sale_many",
    "Verif.Props.C89_quoted_purchase_many",
    "Verif.Props.C89_quoted_sale_many"
   ],
   "note": "The first four: curves whose products fit (Representable), trades that do not empty a vault, as in C74; the _many theorems: steep curves. The examples show gains of 48 and 40 token A from trades with the limit 1."
  },
  {
   "property": "C90",
   "status": "proved",
   "theorems": [
    "Verif.Props.C90_quote",
    "Verif.Props.C90_ledger",
    "Verif.Props.C90_stays",
    "Verif.Props.C90_trade"
   ],
   "note": "C90_trade is for pools without an owner fee on trades that do not trade their own pool tokens, where tokens add up (C87)."
  },
  {
   "property": "C91",
   "status": "proved",
   "theorems": [
    "Verif.Props.C91_order",
    "Verif.Props.C91_almost",
    "Verif.Props.C91_monotone",
    "Verif.Props.C91_squares",
    "Verif.Props.C91_whole",
    "Verif.Props.C91_limit"
   ],
   "note": "C91_limit: 2201 is not the computed root of its square."
  },
  {
   "property": "C92",
   "status": "proved",
   "theorems": [
    "Verif.Props.C92_rounds"
   ],
   "note": "Rounds counted as the fuel of the modelled loop."
  },
  {
   "property": "C93",
   "status": "partial",
   "theorems": [
    "Verif.Props.C93_ready",
    "Verif.Props.C93_linear_partial",
    "Verif.Props.C93_fixed_partial",
    "Verif.Props.C93_withdraw_partial",
    "Verif.Props.C93_single_partial",
    "Verif.Props.C93_trade_owner_partial",
    "Verif.Props.C93_withdraw_owner_partial",
    "Verif.Props.C93_single_owner_partial",
    "Verif.Props.C93_closed",
    "Verif.Props.C93_false"
   ],
   "note": "False of pools with owner fees: C93_false is a concrete ledger where the owner of the fee account closes it and nobody can withdraw any more; C93_closed says so of every pool. Proved for pools without the fee in question, and for pools with it if the owner of the fee account does nothing either (the _owner theorems, on every curve); the ledgers considered are those where no two balances overflow together (Scarce, which holds of accounted mints by C87)."
  },
  {
   "property": "C94",
   "status": "proved",
   "theorems": [
    "Verif.Props.C94_types",
    "Verif.Props.C94_matched",
    "Verif.Props.C94_round_trip",
    "Verif.Props.C94_in_place",
    "Verif.Props.C94_clone",
    "Verif.Props.C94_eq",
    "Verif.Props.C94_mismatch"
   ],
   "note": "C94_mismatch: the counterexample for curves whose tag and calculator disagree. C94_matched also justifies the one-field model of SwapCurve used everywhere else."
  },
  {
   "property": "C95",
   "status": "partial",
   "theorems": [
    "Verif.Props.C95_invariant_partial",
    "Verif.Props.C95_destination_partial",
    "Verif.Props.C95_swap_partial",
    "Verif.Props.C95_accuracy_partial",
    "Verif.Props.C95_close_partial",
    "Verif.Props.C95_settled_partial",
    "Verif.Props.C95_settled_destination_partial",
    "Verif.Props.C95_settled_swap_partial",
    "Verif.Props.C95_false"
   ],
   "note": "C95_false: 32 rounds are not enough for balances 1 and 2^64-1. The partial theorems say the results are exactly the 32nd round, and how close they are to the exact solutions once a further round would take off no more than one unit; the _settled theorems say that 32 rounds are enough for balances of at least 100 units within a factor of 10^8 of each other. The exact set of balances for which they are is not characterised."
  },
  {
   "property": "C96",
   "status": "proved",
   "theorems": [
    "Verif.Props.C96_consent",
    "Verif.Props.C96_fixed",
    "Verif.Props.C96_not_pool",
    "Verif.Props.C96_pool_tokens"
   ],
   "note": ""
  },
  {
   "property": "C97",
   "status": "proved",
   "theorems": [
    "Verif.Props.C97_position",
    "Verif.Props.C97_ordinary",
    "Verif.Props.C97_buy",
    "Verif.Props.C97_sell",
    "Verif.Props.C97_buy_price",
    "Verif.Props.C97_buy_spot",
    "Verif.Props.C97_sell_spot",
    "Verif.Props.C97_later_buyer"
   ],
   "note": "C45 to C47 and C71 are sharper for representable curves. The distances are worth nothing on almost flat curves, where C03, C60 and C70 fail."
  },
  {
   "property": "C98",
   "status": "proved",
   "theorems": [
    "Verif.Props.C98_curve_sell",
    "Verif.Props.C98_curve_buy",
    "Verif.Props.C98_sale",
    "Verif.Props.C98_everything",
    "Verif.Props.C98_purchase"
   ],
   "note": "C48 and C64 are the sharper statements for representable curves. Positions that cannot be computed (stuck pools, C44 and C76) are excluded; where the curve is so flat that the allowances exceed the position, nothing is said."
  },
  {
   "property": "C99",
   "status": "proved",
   "theorems": [
    "Verif.Props.C99_level",
    "Verif.Props.C99_emptied",
    "Verif.Props.C99_cycle",
    "Verif.Props.C99_chain",
    "Verif.Props.C99_chain_emptied"
   ],
   "note": "C74 is sharper for a few trades on representable curves; here the bound does not depend on the number of trades. On curves outside the range the claim is false (C60_drain)."
  },
  {
   "property": "C100",
   "status": "partial",
   "theorems": [
    "Verif.Props.C100_false",
    "Verif.Props.C100_refused_partial",
    "Verif.Props.C100_unreadable_partial"
   ],
   "note": "False of the code as shipped (C100_false): the header is out of date. Proved instead: instructions built from it are refused and pool accounts are not readable with it."
  },
  {
   "property": "C101",
   "status": "partial",
   "theorems": [
    "Verif.Props.C101_creation_partial",
    "Verif.Props.C101_side_partial",
    "Verif.Props.C101_false",
    "Verif.Props.C101_false_linear"
   ],
   "note": "False of the code: initialisation does not compare the pool mint with the two token mints. C101_false is a constant-price pool whose token B is its own pool token and whose creator takes what somebody else deposited. Proved: a vault that holds anything at creation does not hold pool tokens, hence token A of constant-price pools and token B of linear pools are never the pool token."
  },
  {
   "property": "C102",
   "status": "proved",
   "theorems": [
    "Verif.Props.C102_single",
    "Verif.Props.C102_first",
    "Verif.Props.C102_both",
    "Verif.Props.C102_sharp"
   ],
   "note": "C102_sharp: with the limit 1 a quarter of a deposit goes to somebody who burnt all but one pool token. C102_both is for pools that do not trade their own pool tokens."
  },
  {
   "property": "C103",
   "status": "partial",
   "theorems": [
    "Verif.Props.C103_safe",
    "Verif.Props.C103_exact_partial",
    "Verif.Props.C103_fixed_partial",
    "Verif.Props.C103_stuck",
    "Verif.Props.C103_false"
   ],
   "note": "False of linear pools: C103_false has a stranger send one token A to the vault of a linear pool about to be created; C103_stuck shows that no linear pool is ever created with such a vault. C103_exact_partial says that this is the only way; it assumes that accounts of the program keep their size (hsize)."
  },
  {
   "property": "C104",
   "status": "partial",
   "theorems": [
    "Verif.Props.C104_history_partial",
    "Verif.Props.C104_share_partial",
    "Verif.Props.C104_draw_partial",
    "Verif.Props.C104_draw_share_partial",
    "Verif.Props.C104_false",
    "Verif.Props.C104_false_free"
   ],
   "note": "False with exact one-sided withdrawals: C104_false with a trade fee of one half, C104_false_free without fees. C104_history_partial leaves these and the owner trading fee out; C104_draw_partial admits them on pools without trade fees, with an allowance of 2t^2 parts in 10^12 each while every operation leaves a t-th of the pool tokens."
  },
  {
   "property": "C105",
   "status": "partial",
   "theorems": [
    "Verif.Props.C105_root",
    "Verif.Props.C105_close_partial",
    "Verif.Props.C105_squares",
    "Verif.Props.C105_near",
    "Verif.Props.C105_monotone",
    "Verif.Props.C105_deposit",
    "Verif.Props.C105_sharp",
    "Verif.Props.C105_value",
    "Verif.Props.C105_false"
   ],
   "note": "False of very small numbers (C105_false: the root of 10^-12 is 1.2*10^-6); proved from one tenth on, and C105_root says how accurate the root is everywhere. The routine is recalled from the published spl-math 0.1.0, whose source is not in /repo. C105_sharp: the one part in 10^12 is not an artefact of the proof."
  },
  {
   "property": "C106",
   "status": "partial",
   "theorems": [
    "Verif.Props.C106_swap",
    "Verif.Props.C106_root",
    "Verif.Props.C106_history_partial",
    "Verif.Props.C106_share_partial",
    "Verif.Props.C106_false"
   ],
   "note": "False (C106_false: on a new pool of 10^12 and 10^12 a fee of 2 units mints a pool token for which 1000 and 999 units can be had). Proved: each trade costs the others at most one pool token and one part in 10^12 (C106_swap), and over histories, while somebody holds h pool tokens, at most one part in h and one in 10^12 for each operation that issues pool tokens; exact one-sided withdrawals are left out (C104_false)."
  },
  {
   "property": "C107",
   "status": "partial",
   "theorems": [
    "Verif.Props.C107_twice_partial",
    "Verif.Props.C107_curve",
    "Verif.Props.C107_gain",
    "Verif.Props.C107_false"
   ],
   "note": "False (C107_false; C107_gain: with 10^12 of each token in the vaults the receiver of the owner fees trades 200100 there and back, cashes in the four pool tokens minted and has 1998 more of each token). Proved for every trade: the minted pool tokens are worth at most twice the owner fee, and the others together lose at most the fee, and at most one pool token."
  }
 ]
}